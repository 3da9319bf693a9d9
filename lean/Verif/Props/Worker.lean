import Verif.Spec.Worker
import Verif.Props.Age
/-! # The cache worker, in every interleaving: C88 -/
namespace Comfo.Props
open Spec

theorem effects_cons_note (id : CacheId) (t : Int) (as : List Act) :
    effects (.note id t :: as) = .note id t :: effects as := rfl

theorem effects_cons_lock (l : Lock) (as : List Act) : effects (.lock l :: as) = effects as := rfl

theorem post_looked (id : CacheId) : (update id false).Post fun acts _ => Looked id acts := by
  unfold update
  simp only [Prog.Post, Bool.false_eq_true, if_false]
  intro ts c
  by_cases hs : isStale c.last ts = true
  · have h1 := (isStale_iff c.last ts).1 hs
    simp only [hs, Bool.not_true, Bool.false_eq_true, if_false]
    refine (post_refresh id ts).mono ?_
    rintro as _ ⟨qa, q, e, ⟨evs, h2, rfl⟩, rfl⟩
    refine ⟨ts, c, _, rfl, fun h => by omega, fun _ => ⟨rfl, ?_⟩⟩
    have he : effects (evs.map toAct) = evs.map toAct := by
      cases h2 <;> rfl
    cases ho : outcome id q e with
    | none =>
      have : effects (Act.note id ts :: (Act.lock .pm :: evs.map toAct ++ [.unlock .pm]) ++ [] ++
          [.unlock (.cache id)]) = .note id ts :: evs.map toAct := by
        simp only [List.cons_append, effects_cons_note, effects_cons_lock, effects_append, he]
        simp [effects]
      simp only
      rw [this]
      exact .failed ts evs q e h2 ho
    | some v =>
      have : effects (Act.note id ts :: (Act.lock .pm :: evs.map toAct ++ [.unlock .pm]) ++
          [.store id ⟨v, ts⟩] ++ [.unlock (.cache id)]) =
          .note id ts :: evs.map toAct ++ [.store id ⟨v, ts⟩] := by
        simp only [List.cons_append, effects_cons_note, effects_cons_lock, effects_append, he]
        simp [effects]
      simp only
      rw [this]
      exact .good ts evs q e v h2 ho
  · have h1 : ¬ ts - c.last > 4500000000 := fun h => hs ((isStale_iff c.last ts).2 h)
    have h2 : isStale c.last ts = false := by simpa using hs
    simp only [h2, Bool.not_false, if_true, Prog.Post]
    exact ⟨ts, c, _, rfl, fun _ => rfl, fun h => absurd h h1⟩

theorem post_job_tick (k : Tick) : (onTick k).Post fun acts _ => (Job.tick k).Done acts := by
  have key : ∀ i j, ((update i false).bind fun _ => update j false).Post fun acts _ =>
      LookedAt [i, j] acts := by
    intro i j
    refine (post_looked i).seq fun as _ ha => (post_looked j).mono fun bs _ hb => ?_
    have := LookedAt.cons ha (.cons hb .nil)
    simpa using this
  cases k <;> exact key _ _

/-- The program of a job. -/
def _root_.Spec.Job.prog : Job → Prog Unit
  | .tick k => onTick k
  | .flush t => flushCaches t

theorem post_ends (t : Int) :
    (flushCaches t).Post fun acts _ => ∃ work b, acts = work ++ [.sendFlushed b] := by
  rw [flushCaches_eq]
  have any : ∀ p : Prog Unit, p.Post fun _ _ => True := by
    intro p
    induction p with
    | ret _ | panic => trivial
    | _ =>
      rename_i ih
      first | exact ih | exact fun t => ih t
  match flushTargets t with
  | none => exact ⟨[], false, rfl⟩
  | some ids =>
    exact (any _).seq fun as _ _ => ⟨as, true, rfl⟩

theorem job_done {j : Job} {acts : List Act} (h : Path j.prog acts (.ret ())) : j.Done acts := by
  cases j with
  | tick k => exact (post_job_tick k).path h
  | flush t =>
    obtain ⟨work, b, rfl⟩ := (post_ends t).path h
    generalize hq : Prog.ret () = q at h
    generalize ha : work ++ [Act.sendFlushed b] = acts at h
    cases h with
    | nil => simp at ha
    | snoc h1 h2 =>
      obtain ⟨rfl, h3⟩ := List.append_inj' ha rfl
      simp only [List.cons.injEq, and_true] at h3
      subst h3
      obtain ⟨rfl, h4⟩ := flush_done h1 h2
      exact ⟨work, rfl, h4⟩

/-- Jobs run one after the other. -/
inductive JobsRun : List Job → List Act → Prop
  | nil : JobsRun [] []
  | snoc {js acts j more} : JobsRun js acts → Path j.prog more (.ret ()) → JobsRun (js ++ [j]) (acts ++ more)

theorem JobsRun.done {js : List Job} {acts : List Act} (h : JobsRun js acts) : JobsDone js acts := by
  induction h with
  | nil => exact .nil
  | snoc _ hp ih => exact .snoc ih (job_done hp)

/-- What the worker has done and is doing. -/
def Working (s : Sys σ) : Prop :=
  (s.worker = .ret () ∧ ∃ js, JobsRun js (actsOf .worker s.sh.trace) ∧ flushes js = handed s.sh.trace) ∨
  ∃ js acts j cur, JobsRun js acts ∧ actsOf .worker s.sh.trace = acts ++ cur ∧
    Path j.prog cur s.worker ∧ flushes (js ++ [j]) = handed s.sh.trace

theorem Working.idle {s : Sys σ} (h : Working s) (hw : s.worker = .ret ()) :
    ∃ js, JobsRun js (actsOf .worker s.sh.trace) ∧ flushes js = handed s.sh.trace := by
  rcases h with ⟨-, h⟩ | ⟨js, acts, j, cur, h1, h2, h3, h4⟩
  · exact h
  · rw [hw] at h3
    exact ⟨js ++ [j], h2 ▸ .snoc h1 h3, h4⟩

theorem handed_append (a b : List (Tid × Act)) : handed (a ++ b) = handed a ++ handed b := by
  simp [handed]

theorem handed_acts {L : Line σ} {t : Tid} {a : Act} {sh sh' : Shared σ} (h : Acts L t a sh sh') :
    handed sh'.trace = handed sh.trace := by
  rw [acts_trace h, handed_append]
  cases h <;> simp [handed]

theorem working {S : Setup σ} {w : World σ} {s : Sys σ} (h : Reachable S (Sys.initial w) s) :
    Working s := by
  induction h with
  | start => exact .inl ⟨rfl, [], .nil, rfl⟩
  | @step s s' _ hs ih =>
    cases hs with
    | work hw =>
      cases hw with
      | client i c a p sh _ _ ha =>
        have e1 : actsOf .worker sh.trace = actsOf .worker s.sh.trace := by
          rw [acts_trace ha]; simp [actsOf]
        unfold Working
        simp only [e1, handed_acts ha]
        exact ih
      | worker a p sh hn ha =>
        have e1 : actsOf .worker sh.trace = actsOf .worker s.sh.trace ++ [a] := by
          rw [acts_trace ha]; simp [actsOf]
        rcases ih with ⟨h0, -⟩ | ⟨js, acts, j, cur, h1, h2, h3, h4⟩
        · rw [h0] at hn; cases hn
        · refine .inr ⟨js, acts, j, cur ++ [a], h1, ?_, h3.snoc hn, ?_⟩
          · simp only [e1, h2, List.append_assoc]
          · simp only [handed_acts ha]; exact h4
      | flush i c t p _ _ hwk =>
        obtain ⟨js, h1, h2⟩ := ih.idle hwk
        refine .inr ⟨js, _, .flush t, [], h1, by simp [actsOf], .nil, ?_⟩
        simp only [handed_append, ← h2]
        simp [flushes, handed]
      | flushed i c b p q _ _ hn =>
        rcases ih with ⟨h0, -⟩ | ⟨js, acts, j, cur, h1, h2, h3, h4⟩
        · rw [h0] at hn; cases hn
        · refine .inr ⟨js, acts, j, cur ++ [.sendFlushed b], h1, ?_, h3.snoc hn, ?_⟩
          · simp only [actsOf_append, h2, List.append_assoc]; simp [actsOf]
          · simp only [handed_append, h4]; simp [handed]
    | tick k hwk =>
      obtain ⟨js, h1, h2⟩ := ih.idle hwk
      exact .inr ⟨js, _, .tick k, [], h1, by simp, .nil, by simpa [flushes] using h2⟩
    | arrive c hc => exact ih
    | environment line ns he => exact ih

/-- **C88** Whenever the worker waits, all it has ever done is a sequence of jobs, each done
completely: looks at the two caches of a timer, with a refresh of those that are older than 4.5 s and
nothing else, and flushes, exactly those handed to it and in that order. -/
theorem C88_worker {S : Setup σ} {w : World σ} {s : Sys σ} (h : Reachable S (Sys.initial w) s)
    (hi : s.worker = .ret ()) :
    ∃ js, JobsDone js (actsOf .worker s.sh.trace) ∧ flushes js = handed s.sh.trace := by
  obtain ⟨js, h1, h2⟩ := (working h).idle hi
  exact ⟨js, h1.done, h2⟩

theorem path_append {p q r : Prog α} {as bs : List Act} (h1 : Path p as q) (h2 : Path q bs r) : Path p (as ++ bs) r := by
  induction h2 with
  | nil => rw [List.append_nil]; exact h1
  | snoc _ hn ih => rw [← List.append_assoc]; exact .snoc ih hn

/-- A program that does not panic can be carried out to its end. -/
theorem can_end {p : Prog α} {g : G5} (h : p.Ok R5 (fun _ _ => True) g) : ∃ acts a, Path p acts (.ret a) := by
  have cons : ∀ {p q : Prog α} {a : Act}, p.Next a q → (∃ acts b, Path q acts (.ret b)) → ∃ acts b, Path p acts (.ret b) :=
    fun hn ⟨acts, b, h⟩ => ⟨_ :: acts, b, path_append (.snoc .nil hn) h⟩
  induction p generalizing g with
  | ret a => exact ⟨[], a, .nil⟩
  | panic => exact h.elim
  | lock l k ih => exact cons .lock (ih (h trivial).2)
  | unlock l k ih => exact cons .unlock (ih (h trivial).2)
  | rlock l k ih => exact cons .rlock (ih (h trivial).2)
  | runlock l k ih => exact cons .runlock (ih (h trivial).2)
  | now k ih => exact cons (.now 0) (ih _ (h _ trivial).2)
  | sleep ns k ih => exact cons .sleep (ih (h trivial).2)
  | write bs k ih => exact cons (.write (0, none)) (ih _ (h _ trivial).2)
  | read e k ih => exact cons (.read ({}, none)) (ih _ (h _ trivial).2)
  | load id k ih => exact cons (.load (zeroEntry id)) (ih _ (h _ trivial).2)
  | store id e k ih => exact cons .store (ih (h trivial).2)
  | note id t k ih => exact cons .note (ih (h trivial).2)
  | sendFlush t k ih => exact cons .sendFlush (ih (h trivial).2)
  | recvFlushed k ih => exact cons (.recvFlushed true) (ih _ (h _ trivial).2)
  | sendFlushed b k ih => exact cons .sendFlushed (ih (h trivial).2)

/-- **C88** At any time, all the worker has ever done is such a sequence of jobs, and if it is not waiting the beginning
of one more: what it has done so far for the tick it took last or the flush request handed to it last. -/
theorem C88_any_time {S : Setup σ} {w : World σ} {s : Sys σ} (h : Reachable S (Sys.initial w) s) :
    ∃ js acts cur, JobsDone js acts ∧ actsOf .worker s.sh.trace = acts ++ cur ∧
      (s.worker = .ret () ∧ cur = [] ∧ flushes js = handed s.sh.trace ∨
        ∃ j more, j.Done (cur ++ more) ∧ flushes (js ++ [j]) = handed s.sh.trace) := by
  rcases working h with ⟨h1, js, h2, h3⟩ | ⟨js, acts, j, cur, h1, h2, h3, h4⟩
  · exact ⟨js, _, [], h2.done, by simp, .inl ⟨h1, rfl, h3⟩⟩
  · have hj : j.prog.Ok R5 (fun _ _ => True) G5.quiet := by
      cases j with
      | tick k => exact neutral5.onTick k trivial
      | flush t => exact neutral5.flushCaches t trivial
    obtain ⟨more, _, h5⟩ := can_end (path_ok (fun _ _ => trivial) h3 hj)
    exact ⟨js, acts, cur, h1.done, h2, .inr ⟨j, more, job_done (path_append h3 h5), h4⟩⟩

/-- The slow timer fires, its two caches are refreshed, and then a flush of the fans is under way: the worker has asked the
unit for the fans' values and does not wait. -/
example : (Sys.execs demo ([.tick .slow] ++ steps 22 .worker ++ [.arrive (.flush 1)] ++
      steps 2 (.client 0) ++ steps 5 .worker) (Sys.initial { demoStart with clock := 600000000000 })).any
    (fun (s : Sys UInt8) => !s.worker.waits && handed s.sh.trace == [1] &&
      (effects (actsOf .worker s.sh.trace)).filterMap (fun a => match a with
        | .note id _ => some id
        | _ => none) == [.profiles, .bypass, .fans]) = true := by
  set_option maxRecDepth 8000 in decide

/-- The slow timer fires and its two caches are refreshed, a flush of the fans comes, and the slow
timer fires once more, when both caches are fresh: the worker asked the unit three times and waits. -/
example : (Sys.execs demo ([.tick .slow] ++ steps 22 .worker ++ [.arrive (.flush 1)] ++
      steps 2 (.client 0) ++ steps 10 .worker ++ steps 2 (.client 0) ++ [.tick .slow] ++
      steps 8 .worker) (Sys.initial { demoStart with clock := 600000000000 })).any
    (fun (s : Sys UInt8) => s.worker.waits && handed s.sh.trace == [1] &&
      (effects (actsOf .worker s.sh.trace)).filterMap (fun a => match a with
        | .note id _ => some id
        | _ => none) == [.profiles, .bypass, .fans]) = true := by
  set_option maxRecDepth 8000 in decide

end Comfo.Props
