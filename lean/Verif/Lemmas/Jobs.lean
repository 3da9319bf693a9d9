import Verif.Spec.Jobs
import Verif.Lemmas.Takes
import Verif.Lemmas.Live
/-!
Helper lemmas for C108.
-/
namespace Comfo.Pace
open Spec Props

variable {S : Setup σ} {w : World σ} {f : Nat → Sys σ}

/-! ## What a job costs -/

/-- Waiting for the lock of a cache. -/
def stay (δ r : Nat) (id : CacheId) : Nat := (refreshers id - 1) * (2000000000 + 17 * δ) + δ + 3 * r * δ

/-- What the actions of the worker cost. -/
abbrev fee (δ r : Nat) : Act → Nat := price (2000000000 + 11 * δ) (stay δ r) 0 δ

abbrev RJ (δ r : Nat) : Rules Nat := RC (2000000000 + 11 * δ) (stay δ r) 0 δ

theorem cacheTime_eq (δ r : Nat) (id : CacheId) :
    stay δ r id + (2000000000 + 11 * δ) + 1000000000 + 9 * δ ≤ cacheTime δ r id := by
  unfold stay cacheTime
  cases id <;> simp only [refreshers, turnover] <;> omega

theorem rj_update {Q : Nat → Unit → Prop} {δ r g : Nat} (id : CacheId) (force : Bool) (hg : cacheTime δ r id ≤ g)
    (hQ : ∀ g', g ≤ g' + cacheTime δ r id → Q g' ()) : (update id force).Ok (RJ δ r) Q g := by
  have := cacheTime_eq δ r id
  exact rc_update id force (by omega) fun g' h => hQ g' (by omega)

theorem rj_updates {Q : Nat → Unit → Prop} {δ r : Nat} (ids : List CacheId) : ∀ {g : Nat},
    (ids.map (cacheTime δ r)).sum ≤ g → (∀ g', g ≤ g' + (ids.map (cacheTime δ r)).sum → Q g' ()) →
    (Props.updates ids).Ok (RJ δ r) Q g := by
  induction ids with
  | nil => intro g _ h; exact h g (by simp)
  | cons id ids ih =>
    intro g hg hQ
    rw [List.map_cons, List.sum_cons] at hg hQ
    exact ok_bind (rj_update id true (by omega) fun g' h' => ih (by omega) fun g'' h'' => hQ _ (by omega))

theorem rj_tick {δ r g : Nat} (k : Tick) (hg : ((tier k).map (cacheTime δ r)).sum ≤ g) :
    (onTick k).Ok (RJ δ r) (fun _ _ => True) g := by
  cases k <;> simp only [tier, List.map_cons, List.map_nil, List.sum_cons, List.sum_nil] at hg <;>
    exact ok_bind (rj_update _ _ (by omega) fun g' h' => rj_update _ _ (by omega) fun _ _ => trivial)

theorem rj_flush {δ r g : Nat} (t : Int)
    (hg : (((Props.flushTargets t).getD []).map (cacheTime δ r)).sum + δ ≤ g) :
    (flushCaches t).Ok (RJ δ r) (fun _ _ => True) g := by
  rw [flushCaches_eq]
  cases h : flushTargets t with
  | none =>
    rw [h] at hg
    exact fun _ => ⟨by show δ ≤ _; simp at hg; omega, trivial⟩
  | some ids =>
    rw [h] at hg
    simp only [Option.getD_some] at hg
    exact ok_bind (rj_updates ids (by omega) fun g' h' _ => ⟨by show δ ≤ _; omega, trivial⟩)

theorem jobTime_all (δ r : Nat) (j : Job) : jobTime δ r j ≤ jobTime δ r (.flush 10) := by
  have one : ∀ id, cacheTime δ r id ≤ ([CacheId.boot, .bypass, .temps, .fans, .profiles, .errors].map
      (cacheTime δ r)).sum := fun id => single_le (by cases id <;> simp)
  have e : jobTime δ r (.flush 10) = ([CacheId.boot, .bypass, .temps, .fans, .profiles, .errors].map
      (cacheTime δ r)).sum + 4 * δ := rfl
  cases j with
  | tick k =>
    rw [e]
    cases k <;> simp only [jobTime, Job.caches, tier, List.map_cons, List.map_nil, List.sum_cons, List.sum_nil] <;>
      omega
  | flush t =>
    rw [e]
    refine Nat.add_le_add_right (?_ : (((flushTargets t).getD []).map (cacheTime δ r)).sum ≤ _) _
    unfold flushTargets
    repeat' split
    all_goals first
      | exact Nat.zero_le _
      | exact Nat.le_refl _
      | (simp only [Option.getD_some, List.map_cons, List.map_nil, List.sum_cons, List.sum_nil]; omega)

/-- Whatever the worker is at, it is done in the time it takes to refresh all caches. -/
theorem worker_rest {s : Sys σ} (h : Reachable S (Sys.initial w) s) (δ r : Nat) :
    ∃ g, s.worker.Ok (RJ δ r) (fun _ _ => True) g ∧ g + 3 * δ ≤ jobTime δ r (.flush 10) := by
  obtain ⟨g, hi⟩ := inv1 h
  rcases hi.hist.job with ⟨e, -⟩ | ⟨k, pre, mid, -, hp, -⟩ | ⟨i, t, pre, mid, -, hp, -⟩
  · exact ⟨0, by rw [e]; trivial, by simp only [jobTime]; omega⟩
  · obtain ⟨h1, -⟩ := rc_path hp (rj_tick (δ := δ) (r := r) k (Nat.le_refl _))
    have := jobTime_all δ r (.tick k)
    exact ⟨_, h1, by simp only [jobTime, Job.caches] at this ⊢; omega⟩
  · obtain ⟨h1, -⟩ := rc_path hp (rj_flush (δ := δ) (r := r) t (Nat.le_refl _))
    have := jobTime_all δ r (.flush t)
    exact ⟨_, h1, by simp only [jobTime, Job.caches] at this ⊢; omega⟩

/-! ## The worker at work -/

theorem worker_busy (hL : S.line.NoPanic) {s : Sys σ} (h : Reachable S (Sys.initial w) s)
    (hb : s.worker ≠ .ret ()) : ∃ y, Poised s .worker y := by
  obtain ⟨g, hi⟩ := inv1 h
  have hh := head_of_ok hL hi.glob hi.worker
  suffices ∃ y q, s.worker.Next y q by
    obtain ⟨y, q, h⟩ := this
    exact ⟨y, q, h⟩
  revert hh hb
  generalize s.worker = p
  intro hb hh
  cases hh with
  | ret => exact absurd rfl hb
  | lock => exact ⟨_, _, .lock⟩
  | rlock => exact ⟨_, _, .rlock⟩
  | sendFlush => exact ⟨_, _, .sendFlush⟩
  | recvFlushed => exact ⟨_, _, .recvFlushed true⟩
  | sendFlushed => exact ⟨_, _, .sendFlushed⟩
  | other _ h _ _ => exact ⟨_, _, h⟩

/-- How long the worker takes for its next action. -/
theorem work_step (hL : S.line.NoPanic) (hS : ∀ c, S.calls c → OnServer c) (hf : Execution S w f) {δ : Nat}
    (hp : Prompt S.line f δ) (hq : Queued f) (hh : Handover f δ) {r c d : Nat} {y : Act} (hcd : c ≤ d)
    (hr : ∀ k id, c ≤ k → k ≤ d → readers (f k) id ≤ r) (hid : Still f .worker c d)
    (hy : Poised (f c) .worker y) :
    (f (d + 1)).sh.world.clock ≤ (f c).sh.world.clock + (fee δ r y : Nat) := by
  by_cases hlock : (∃ l', y = .lock l') ∨ ∃ l', y = .rlock l'
  · have share : ∃ b l', y = taking l' b := by
      rcases hlock with ⟨l', rfl⟩ | ⟨l', rfl⟩
      · exact ⟨true, l', rfl⟩
      · exact ⟨false, l', rfl⟩
    obtain ⟨b, l', rfl⟩ := share
    cases l' with
    | pm =>
      cases b with
      | true => exact wait_line hL hS hf hp hq hcd hy hid
      | false =>
        obtain ⟨g, hi⟩ := inv1 (run_reach hf c)
        obtain ⟨p, hn⟩ := hy
        exact absurd rfl (ok_next hi.worker hn trivial).1.2.2
    | cache id =>
      have := wait_cache hL hS hf hp hq hcd (fun i c e => by cases e) hy hid (hr c id (Nat.le_refl _) hcd)
      cases b <;> exact this
    | am => exact absurd hy (worker_poised (run_reach hf c) (.inr (.inr rfl)))
    | fan => exact absurd hy (worker_poised (run_reach hf c) (.inl rfl))
    | temp => exact absurd hy (worker_poised (run_reach hf c) (.inr (.inl rfl)))
  · have hpr : fee δ r y = lasting δ y := by
      cases y <;> first | rfl | exact absurd (.inl ⟨_, rfl⟩) hlock | exact absurd (.inr ⟨_, rfl⟩) hlock
    rw [hpr]
    by_cases ha : ∃ b, y = .sendFlushed b
    · obtain ⟨b, rfl⟩ := ha
      refine hh b c d hcd fun k k1 k2 => ?_
      have hyk := poised_idle hf k1 (idle_part hf hid k1 k2).1 hy
      refine ⟨hyk, ?_⟩
      obtain ⟨g, hi⟩ := inv1 (run_reach hf k)
      have hG : Glob1 g (f k).sh := hi.glob
      obtain ⟨q, hn⟩ := hyk
      obtain ⟨-, -, v, hv, -⟩ := (ok_next hi.worker hn trivial).1
      obtain ⟨i, ha⟩ := hG.owes_await v hv
      obtain ⟨x, p, hx, hk⟩ := awaits_recv hL hi (i := i) (by rw [ha]; simp)
      exact ⟨i, x, _, hx, by rw [hk]; exact .recvFlushed b⟩
    · refine hp .worker c d hcd (fun k k1 k2 => ?_) hid y hy
      have hyk := poised_idle hf k1 (idle_part hf hid k1 k2).1 hy
      obtain ⟨g, hi⟩ := inv1 (run_reach hf k)
      have hG : Glob1 g (f k).sh := hi.glob
      obtain ⟨p, hn⟩ := hyk
      have must := (ok_next hi.worker hn (by
        cases y with
        | recvFlushed b => intro v h; rw [hG.workerAwait] at h; cases h
        | _ => trivial)).1
      have hhead := head_of_ok hL hi.glob hi.worker
      have hpo : ∀ {a q}, (f k).worker.Next a q → Poised (f k) .worker a := fun h => ⟨_, h⟩
      revert hhead hn hpo
      generalize (f k).worker = P
      intro hn hhead hpo
      cases hhead with
      | ret => cases hn
      | lock => cases hn; exact absurd (.inl ⟨_, rfl⟩) hlock
      | rlock => cases hn; exact absurd (.inr ⟨_, rfl⟩) hlock
      | sendFlush =>
        cases hn
        have := must.2.2
        rw [(hG.isWorker .worker).2 rfl] at this
        cases this
      | recvFlushed => cases hn; exact absurd hG.workerAwait must.1
      | sendFlushed => cases hn; exact absurd ⟨_, rfl⟩ ha
      | other ha hn' _ _ =>
        obtain ⟨s', h3, h4⟩ := canAct (hpo hn') ha
        exact ⟨s', h3, _, by rw [h4, acts_trace ha]⟩

/-- A job goes on until it is done. -/
theorem worker_path (hf : Execution S w f) {m n : Nat} (hmn : m ≤ n)
    (hb : ∀ k, m ≤ k → k ≤ n → (f k).worker ≠ .ret ()) :
    ∃ as, actsOf .worker (f n).sh.trace = actsOf .worker (f m).sh.trace ++ as ∧
      Path (f m).worker as (f n).worker := by
  induction hmn with
  | refl => exact ⟨[], by simp, .nil⟩
  | @step n hmn ih =>
    obtain ⟨as, h1, h2⟩ := ih fun k k1 k2 => hb k k1 (Nat.le_succ_of_le k2)
    have hbn := hb n hmn (Nat.le_succ n)
    rcases hf.next n with h | h
    · generalize f (n + 1) = s' at h
      cases h with
      | work hw =>
        cases hw with
        | client i c a p sh hc hn ha =>
          refine ⟨as, ?_, h2⟩
          show actsOf .worker sh.trace = _
          rw [acts_trace ha, actsOf_append, acts_one, if_neg (by simp), List.append_nil, h1]
        | worker a p sh hn ha =>
          refine ⟨as ++ [a], ?_, h2.snoc hn⟩
          show actsOf .worker sh.trace = _
          rw [acts_trace ha, actsOf_append, acts_one, if_pos rfl, h1, List.append_assoc]
        | flush i c t p _ _ hw => exact absurd hw hbn
        | flushed i c b p q hc hn hq =>
          refine ⟨as ++ [.sendFlushed b], ?_, h2.snoc hq⟩
          show actsOf .worker ((f n).sh.trace ++ _) = _
          rw [actsOf_append, h1, List.append_assoc]; rfl
      | tick k hw => exact absurd hw hbn
      | arrive c => exact ⟨as, h1, h2⟩
      | environment => exact ⟨as, h1, h2⟩
    · rw [h]; exact ⟨as, h1, h2⟩

/-- As long as the worker is busy with what it was at, no more time passes than that costs. -/
theorem busy_time (hL : S.line.NoPanic) (hS : ∀ c, S.calls c → OnServer c) (hf : Execution S w f) {δ : Nat}
    (hp : Prompt S.line f δ) (hq : Queued f) (hh : Handover f δ) {r m n g : Nat} (hmn : m ≤ n)
    (hr : ∀ k id, m ≤ k → k ≤ n → readers (f k) id ≤ r)
    (hg : (f m).worker.Ok (RJ δ r) (fun _ _ => True) g)
    (hb : ∀ k, m ≤ k → k ≤ n → (f k).worker ≠ .ret ()) :
    (f (n + 1)).sh.world.clock ≤ (f m).sh.world.clock + (g : Nat) := by
  obtain ⟨as, y, h1, h2, h3⟩ := chain hf (t := .worker) hmn (fee δ r) (price_kind _ _ _ _)
    (fun k k1 k2 => worker_busy hL (run_reach hf k) (hb k k1 k2))
    (fun k d y k1 k2 k3 hid hy => work_step hL hS hf hp hq hh k2
      (fun k' id a b => hr k' id (Nat.le_trans k1 a) (Nat.le_trans b k3)) hid hy)
  obtain ⟨as', h4, h5⟩ := worker_path hf hmn hb
  rw [h1] at h4
  have e := List.append_cancel_left h4
  subst e
  obtain ⟨h6, h7⟩ := rc_path h5 hg
  obtain ⟨q, hn⟩ := h2
  have h8 := price_le (ok_next h6 hn trivial).1
  have : ((as ++ [y]).map (fee δ r)).sum ≤ g := by
    rw [List.map_append, List.sum_append]
    simp only [List.map_cons, List.map_nil, List.sum_cons, List.sum_nil]
    unfold fee
    omega
  omega

/-! ## The request -/

/-- The five states of a flush request. -/
theorem flush_stages {cv : FloatConv} {t : Int} {as : List Act} {p : Prog Resp}
    (h : Path ((Call.flush t).prog cv) as p) :
    (as.length = 0 ∧ ∃ k, p = .now k) ∨ (as.length = 1 ∧ ∃ k, p = .sendFlush t k) ∨
    (as.length = 2 ∧ ∃ k, p = .recvFlushed k) ∨ (as.length = 3 ∧ ∃ k, p = .now k) ∨
    (as.length = 4 ∧ ∃ v, p = .ret v) := by
  suffices (as.length = 0 ∧ p = (Call.flush t).prog cv) ∨
      (as.length = 1 ∧ ∃ start, p = .sendFlush t (.recvFlushed fun success => .now fun stop =>
        .ret (.flushed (.ok { success, reqTime := timeSub stop start })))) ∨
      (as.length = 2 ∧ ∃ start, p = .recvFlushed fun success => .now fun stop =>
        .ret (.flushed (.ok { success, reqTime := timeSub stop start }))) ∨
      (as.length = 3 ∧ ∃ start success, p = .now fun stop =>
        .ret (.flushed (.ok { success, reqTime := timeSub stop start }))) ∨
      (as.length = 4 ∧ ∃ v, p = .ret v) by
    rcases this with ⟨a, rfl⟩ | ⟨a, _, rfl⟩ | ⟨a, _, rfl⟩ | ⟨a, _, _, rfl⟩ | ⟨a, v, rfl⟩
    · exact .inl ⟨a, _, rfl⟩
    · exact .inr (.inl ⟨a, _, rfl⟩)
    · exact .inr (.inr (.inl ⟨a, _, rfl⟩))
    · exact .inr (.inr (.inr (.inl ⟨a, _, rfl⟩)))
    · exact .inr (.inr (.inr (.inr ⟨a, _, rfl⟩)))
  generalize hP : (Call.flush t).prog cv = P at h ⊢
  induction h with
  | nil => exact .inl ⟨rfl, rfl⟩
  | snoc _ hn ih =>
    rw [List.length_append]
    rcases ih with ⟨a, rfl⟩ | ⟨a, _, rfl⟩ | ⟨a, _, rfl⟩ | ⟨a, _, _, rfl⟩ | ⟨a, v, rfl⟩
    · subst hP; cases hn; exact .inr (.inl ⟨by simp [a], _, rfl⟩)
    · cases hn; exact .inr (.inr (.inl ⟨by simp [a], _, rfl⟩))
    · cases hn; exact .inr (.inr (.inr (.inl ⟨by simp [a], _, _, rfl⟩)))
    · cases hn; exact .inr (.inr (.inr (.inr ⟨by simp [a], _, rfl⟩)))
    · cases hn

end Comfo.Pace
