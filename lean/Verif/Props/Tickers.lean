import Verif.Props.Jobs
import Verif.Props.Age
import Verif.Lemmas.Play
import Verif.Spec.Tickers
/-!
# C110: how old a value can be when it is served

C64 says how old a value is at the most in terms of the timer that fired last; C108 says how long the worker
takes for what it does. Together with timers that fire in time this bounds the age of values by the clock.
-/
namespace Comfo.Props
open Spec Pace

variable {S : Setup σ} {w : World σ} {f : Nat → Sys σ}

theorem run_from (hf : Execution S w f) {m n : Nat} (h : m ≤ n) : Reachable S (f m) (f n) := by
  induction h with
  | refl => exact .start
  | @step n _ ih =>
    rcases hf.next n with h | h
    · exact .step ih h
    · rw [h]; exact ih

theorem run_clock (hf : Execution S w f) {m n : Nat} (h : m ≤ n) :
    (f m).sh.world.clock ≤ (f n).sh.world.clock := by
  obtain ⟨_, _, h, _⟩ := since (run_from hf h)
  exact h

/-- No time passes when the worker takes up a job. -/
theorem take_clock (hf : Execution S w f) {n : Nat} (h1 : (f n).worker = .ret ()) (h2 : (f (n + 1)).worker ≠ .ret ()) :
    (f (n + 1)).sh.world.clock = (f n).sh.world.clock := by
  rcases hf.next n with h | h
  · generalize f (n + 1) = s' at h h2
    cases h with
    | work hw =>
      cases hw with
      | client => exact absurd h1 h2
      | worker a p sh hn _ => rw [h1] at hn; cases hn
      | flush => rfl
      | flushed i c b p q _ _ hn => rw [h1] at hn; cases hn
    | tick | arrive => rfl
    | environment => exact absurd h1 h2
  · rw [h]

/-- A busy worker has been waiting before. -/
theorem last_idle (hf : Execution S w f) {n : Nat} (h : (f n).worker ≠ .ret ()) :
    ∃ d, d < n ∧ (f d).worker = .ret () ∧ ∀ k, d < k → k ≤ n → (f k).worker ≠ .ret () := by
  induction n with
  | zero => rw [hf.start] at h; exact absurd rfl h
  | succ n ih =>
    by_cases hn : (f n).worker = .ret ()
    · refine ⟨n, Nat.lt_succ_self _, hn, fun k k1 k2 => ?_⟩
      have : k = n + 1 := by omega
      rw [this]; exact h
    · obtain ⟨d, d1, d2, d3⟩ := ih hn
      refine ⟨d, by omega, d2, fun k k1 k2 => ?_⟩
      rcases Nat.lt_or_ge n k with hk | hk
      · have : k = n + 1 := by omega
        rw [this]; exact h
      · exact d3 k k1 hk

/-- A job is done in time. -/
theorem job_time {δ r A : Nat} (T : Timely S w f δ r) (hA : JobsWithin f δ r A) {d n : Nat} (hd : d < n)
    (h1 : (f d).worker = .ret ()) (h2 : ∀ k, d < k → k ≤ n → (f k).worker ≠ .ret ()) :
    (f (n + 1)).sh.world.clock ≤ (f (d + 1)).sh.world.clock + (A : Nat) := by
  obtain ⟨j, hb, hj⟩ := hA d h1 (h2 _ (Nat.lt_succ_self _) hd)
  have := C108_job T.line T.calls T.run T.prompt T.queued T.handover hb hd h2 (fun k id _ _ => T.readers k id)
  omega

/-- The timers have the periods they should have. -/
theorem period_eq (k : Tick) : k.period = (tickPeriod k : Nat) := by cases k <;> rfl

/-- When the worker has taken no tick of timer `k` since `m`, then `m` is not long ago. -/
theorem no_tick_time {δ r A j : Nat} (T : Timely S w f δ r) (hA : JobsWithin f δ r A) {k : Tick} (hk : Ticking f k δ j) {m n : Nat}
    (hmn : m ≤ n) (hno : ∀ i, m ≤ i → i ≤ n → ¬ TakesTick f k i) :
    (f (n + 1)).sh.world.clock ≤ (f m).sh.world.clock + (tickPeriod k + (j + 1) * (A + δ) : Nat) := by
  have hf := T.run
  have hP := period_eq k
  -- before the period is over
  have early : ∀ n, m ≤ n → (∀ i, m ≤ i → i ≤ n → ¬ TakesTick f k i) →
      (f n).sh.world.clock < (f m).sh.world.clock + (tickPeriod k : Nat) →
      ((f n).worker = .ret () → (f (n + 1)).sh.world.clock ≤ (f m).sh.world.clock + (tickPeriod k + δ : Nat)) ∧
      ((f n).worker ≠ .ret () → (f (n + 1)).sh.world.clock ≤ (f m).sh.world.clock + (tickPeriod k + A : Nat)) := by
    intro n hmn hno hX
    refine ⟨fun hi => ?_, fun hb => ?_⟩
    · rcases hk.soon m n n hmn (Nat.le_refl _) hno (fun i i1 i2 => by
        rw [show i = n by omega]; exact hi) with h | h <;> omega
    · obtain ⟨d, d1, d2, d3⟩ := last_idle hf hb
      have := job_time T hA d1 d2 d3
      have := run_clock hf (show d + 1 ≤ n by omega)
      omega
  have hJ : (j + 1) * (A + δ) = j * (A + δ) + A + δ := by rw [Nat.add_mul]; omega
  by_cases hX : (f n).sh.world.clock < (f m).sh.world.clock + (tickPeriod k : Nat)
  · have := early n hmn hno hX
    by_cases hi : (f n).worker = .ret ()
    · have := this.1 hi; omega
    · have := this.2 hi; omega
  -- the first step after it
  obtain ⟨c, hmc, hcn, hc, hc'⟩ : ∃ c, m ≤ c ∧ c < n ∧
      (f m).sh.world.clock + (tickPeriod k : Nat) ≤ (f (c + 1)).sh.world.clock ∧
      (f c).sh.world.clock < (f m).sh.world.clock + (tickPeriod k : Nat) := by
    clear hno
    induction hmn with
    | refl => exact absurd (show (f m).sh.world.clock < _ by cases k <;> simp only [tickPeriod] <;> omega) hX
    | @step n hmn ih =>
      by_cases hn : (f n).sh.world.clock < (f m).sh.world.clock + (tickPeriod k : Nat)
      · exact ⟨n, hmn, Nat.lt_succ_self _, Int.not_lt.1 hX, hn⟩
      · obtain ⟨c, a, b, e⟩ := ih hn
        exact ⟨c, a, by omega, e⟩
  -- from then on
  have key : ∀ n, c + 1 ≤ n → (∀ i, m ≤ i → i ≤ n → ¬ TakesTick f k i) → ∀ js, Begun f (c + 1) n js →
      ((f n).worker = .ret () → ∃ c', m ≤ c' ∧ c' ≤ n ∧ (∀ i, c' ≤ i → i ≤ n → (f i).worker = .ret ()) ∧
        (f c').sh.world.clock ≤ (f m).sh.world.clock + (tickPeriod k + js.length * (A + δ) + A : Nat)) ∧
      ((f n).worker ≠ .ret () → ∃ d, d < n ∧ (f d).worker = .ret () ∧ (∀ i, d < i → i ≤ n → (f i).worker ≠ .ret ()) ∧
        (f (d + 1)).sh.world.clock ≤ (f m).sh.world.clock + (tickPeriod k + js.length * (A + δ) : Nat)) := by
    intro n hcn
    induction hcn with
    | refl =>
      intro hno js hjs
      have hnil := begun_self hjs
      subst hnil
      have he := early c hmc (fun i i1 i2 => hno i i1 (by omega)) hc'
      refine ⟨fun hi => ?_, fun hb => ?_⟩
      · by_cases hci : (f c).worker = .ret ()
        · refine ⟨c, hmc, Nat.le_succ c, fun i i1 i2 => ?_, by omega⟩
          rcases Nat.lt_or_ge c i with h | h
          · rw [show i = c + 1 by omega]; exact hi
          · rw [show i = c by omega]; exact hci
        · refine ⟨c + 1, by omega, Nat.le_refl _, fun i i1 i2 => ?_, ?_⟩
          · rw [show i = c + 1 by omega]; exact hi
          · have := he.2 hci
            simp only [List.length_nil, Nat.zero_mul]; omega
      · obtain ⟨d, d1, d2, d3⟩ := last_idle hf hb
        refine ⟨d, d1, d2, d3, ?_⟩
        rcases Nat.lt_or_ge d c with h | h
        · have := run_clock hf (show d + 1 ≤ c by omega)
          omega
        · have : d = c := by omega
          subst this
          have := take_clock hf d2 hb
          omega
    | @step n hcn ih =>
      have hcn : c + 1 ≤ n := hcn
      intro hno js hjs
      rcases begun_step hjs hcn δ r with ⟨js', jb, g, e, hb', hi, hbusy, -, -⟩ | ⟨hb', hkeep⟩
      · obtain ⟨c', c1, c2, c3, c4⟩ := (ih (fun i i1 i2 => hno i i1 (by omega)) js' hb').1 hi
        refine ⟨fun h => absurd h hbusy, fun _ => ⟨n, Nat.lt_succ_self _, hi, fun i i1 i2 => ?_, ?_⟩⟩
        · rw [show i = n + 1 by omega]; exact hbusy
        · have hlen : js.length * (A + δ) = js'.length * (A + δ) + A + δ := by
            rw [e, List.length_append, List.length_singleton, Nat.add_mul]; omega
          rcases hk.soon m c' n c1 c2 (fun i i1 i2 => hno i i1 (by omega)) c3 with h | h <;> omega
      · have hn := ih (fun i i1 i2 => hno i i1 (by omega)) js hb'
        refine ⟨fun hi' => ?_, fun hb => ?_⟩
        · by_cases hi : (f n).worker = .ret ()
          · obtain ⟨c', c1, c2, c3, c4⟩ := hn.1 hi
            refine ⟨c', c1, by omega, fun i i1 i2 => ?_, c4⟩
            rcases Nat.lt_or_ge n i with h | h
            · rw [show i = n + 1 by omega]; exact hi'
            · exact c3 i i1 h
          · obtain ⟨d, d1, d2, d3, d4⟩ := hn.2 hi
            refine ⟨n + 1, by omega, Nat.le_refl _, fun i i1 i2 => ?_, ?_⟩
            · rw [show i = n + 1 by omega]; exact hi'
            · have := job_time T hA d1 d2 d3
              omega
        · have hi : (f n).worker ≠ .ret () := fun h => hb (hkeep h)
          obtain ⟨d, d1, d2, d3, d4⟩ := hn.2 hi
          refine ⟨d, by omega, d2, fun i i1 i2 => ?_, d4⟩
          rcases Nat.lt_or_ge n i with h | h
          · rw [show i = n + 1 by omega]; exact hb
          · exact d3 i i1 h
  obtain ⟨js, hjs⟩ := C108_begun hf (show c + 1 ≤ n from hcn)
  have hlen := hk.turn m (c + 1) n js (by omega) (fun i i1 i2 => hno i i1 (by omega)) (by omega) hjs
  have hlen := Nat.mul_le_mul_right (A + δ) hlen
  obtain ⟨h1, h2⟩ := key n hcn hno js hjs
  by_cases hi : (f n).worker = .ret ()
  · obtain ⟨c', c1, c2, c3, c4⟩ := h1 hi
    rcases hk.soon m c' n c1 c2 hno c3 with h | h <;> omega
  · obtain ⟨d, d1, d2, d3, d4⟩ := h2 hi
    have := job_time T hA d1 d2 d3
    omega

/-- There is a last step with a clock below `x`. -/
theorem last_below {x : Int} {n : Nat} (h0 : (f 0).sh.world.clock < x) (hn : x ≤ (f n).sh.world.clock) :
    ∃ m, m < n ∧ (f m).sh.world.clock < x ∧ x ≤ (f (m + 1)).sh.world.clock := by
  induction n with
  | zero => omega
  | succ n ih =>
    by_cases h : x ≤ (f n).sh.world.clock
    · obtain ⟨m, a, b⟩ := ih h
      exact ⟨m, by omega, b⟩
    · exact ⟨n, Nat.lt_succ_self _, by omega, hn⟩

/-- A first step with a property. -/
theorem first_step {P : Nat → Prop} {m n : Nat} (h : ∃ i, m ≤ i ∧ i < n ∧ P i) :
    ∃ i, m ≤ i ∧ i < n ∧ P i ∧ ∀ i', m ≤ i' → i' < i → ¬ P i' := by
  induction n with
  | zero => obtain ⟨i, _, h, _⟩ := h; omega
  | succ n ih =>
    by_cases hn : ∃ i, m ≤ i ∧ i < n ∧ P i
    · obtain ⟨i, a, b, c⟩ := ih hn
      exact ⟨i, a, by omega, c⟩
    · obtain ⟨i, a, b, c⟩ := h
      have : i = n := by
        apply Classical.byContradiction
        intro hne
        exact hn ⟨i, a, by omega, c⟩
      subst this
      exact ⟨i, a, by omega, c, fun i' a' b' c' => hn ⟨i', a', b', c'⟩⟩

/-- **C110** (1) At any time the worker has, not long ago, taken a tick of timer `k` and has dealt with it. -/
theorem C110_tick {δ r A j : Nat} (T : Timely S w f δ r) (hA : JobsWithin f δ r A) {k : Tick} (hk : Ticking f k δ j) {n : Nat}
    (hn : (f 0).sh.world.clock + (tickTime δ r A j k : Nat) < (f n).sh.world.clock) :
    ∃ a b, a < b ∧ b < n ∧ TakesTick f k a ∧ (f b).worker = .ret () ∧
      (f n).sh.world.clock - (tickTime δ r A j k : Nat) ≤ (f a).sh.world.clock := by
  have hf := T.run
  obtain ⟨m, hmn, hm, hm'⟩ := last_below (f := f) (x := (f n).sh.world.clock - (tickTime δ r A j k : Nat)) (n := n)
    (by omega) (by omega)
  have hex : ∃ a, m ≤ a ∧ a < n ∧ TakesTick f k a := by
    apply Classical.byContradiction
    intro hne
    have := no_tick_time T hA hk (m := m) (n := n - 1) (by omega) fun i i1 i2 hi => hne ⟨i, i1, by omega, hi⟩
    rw [show n - 1 + 1 = n by omega] at this
    simp only [tickTime] at hm
    omega
  obtain ⟨a, hma, han, ha, hfirst⟩ := first_step hex
  have hck : (f (a + 1)).sh.world.clock = (f a).sh.world.clock := by rw [ha.2]
  have hma' : m < a := by
    rcases Nat.lt_or_ge m a with h | h
    · exact h
    · have : a = m := by omega
      subst this
      omega
  have hle := run_clock hf (show m + 1 ≤ a from hma')
  have hbusy : ∃ b, a < b ∧ b < n ∧ (f b).worker = .ret () := by
    apply Classical.byContradiction
    intro hne
    have hb : ∀ i, a < i → i ≤ n - 1 → (f i).worker ≠ .ret () := fun i i1 i2 hi => hne ⟨i, i1, by omega, hi⟩
    have h1 := no_tick_time T hA hk (m := m) (n := a - 1) (by omega) fun i i1 i2 => hfirst i i1 (by omega)
    rw [show a - 1 + 1 = a by omega] at h1
    have h2 : (f n).sh.world.clock ≤ (f (a + 1)).sh.world.clock + (jobTime δ r (.tick k) : Nat) := by
      rcases Nat.lt_or_ge a (n - 1) with h | h
      · have := C108_job T.line T.calls hf T.prompt T.queued T.handover (m := a) (n := n - 1) (j := .tick k)
          (.tick .start ha.1 (by rw [ha.2])) h hb (fun i id _ _ => T.readers i id)
        rw [show n - 1 + 1 = n by omega] at this
        exact this
      · rw [show a + 1 = n by omega]; omega
    simp only [tickTime] at hm
    omega
  obtain ⟨b, hab, hbn, hb⟩ := hbusy
  exact ⟨a, b, hab, hbn, ha, hb, by omega⟩

/-- Requests are not forgotten. -/
theorem clients_grow (hf : Execution S w f) {m n : Nat} (hmn : m ≤ n) : (f m).clients.length ≤ (f n).clients.length := by
  apply Nat.le_of_not_lt
  intro h
  have : ∀ {m n i : Nat}, m ≤ n → i < (f m).clients.length → i < (f n).clients.length := by
    intro m n i hmn hm
    induction hmn with
    | refl => exact hm
    | @step n _ ih =>
      obtain ⟨d, hd, -⟩ := call_stays (hf.next n) (List.getElem?_eq_getElem ih)
      exact (List.getElem?_eq_some_iff.1 hd).1
  exact absurd (this hmn h) (Nat.lt_irrefl _)

/-- **C110** (2) Whoever asks for one of the caches timer `k` is responsible for, at step `n` or later, gets a value that
was read from the unit at most so long before `n`: the time of (1), and 4.5 s. -/
theorem C110_age {δ r A j : Nat} (T : Timely S w f δ r) (hA : JobsWithin f δ r A) (hw : ∀ id, (w.get id).last ≤ w.clock) {k : Tick}
    (hk : Ticking f k δ j) {id : CacheId} (hid : id ∈ tier k) {n n' : Nat}
    (hn : (f 0).sh.world.clock + (tickTime δ r A j k : Nat) < (f n).sh.world.clock)
    (hok : ∀ a b ext, a < b → b < n → (f n).sh.world.clock - (tickTime δ r A j k : Nat) ≤ (f a).sh.world.clock →
      TakesTick f k a → (f b).worker = .ret () → (f b).sh.trace = (f a).sh.trace ++ ext → WorkerSucceeds id ext)
    (hnn : n ≤ n') {i : Nat} (hi : (f n).clients.length ≤ i) {v : Resp} (ha : Answered (f n') i (getCall id) v) :
    ∃ pre c post, (f n').sh.trace = pre ++ (.client i, .load id c) :: post ∧
      c = current id (w.get id) pre ∧ v = getAnswer id c.val ∧
      (f n).sh.world.clock - (tickTime δ r A j k + 4500000000 : Nat) ≤ c.last := by
  have hf := T.run
  obtain ⟨a, b, hab, hbn, ht, hb, hle⟩ := C110_tick T hA hk hn
  have h1 : Reachable S { f a with worker := onTick k } (f b) := ht.2 ▸ run_from hf (show a + 1 ≤ b from hab)
  obtain ⟨ext, hext, -⟩ := since h1
  have hlen : (f b).clients.length ≤ i := Nat.le_trans (clients_grow hf (Nat.le_of_lt hbn)) hi
  obtain ⟨pre, c, post, e1, e2, e3, e4⟩ := C64_bounded_age hw hid (run_reach hf a) ht.1 h1 hb hext
    (hok a b ext hab hbn hle ht hb hext) (run_from hf (show b ≤ n' by omega)) hlen ha
  exact ⟨pre, c, post, e1, e2, e3, by omega⟩

/-- All jobs are done within the time of a flush of all caches. -/
theorem jobs_all (hf : Execution S w f) (δ r : Nat) : JobsWithin f δ r (24000000000 + (187 + 18 * r) * δ) := by
  intro n h1 h2
  obtain ⟨js, hb⟩ := C108_begun hf (Nat.le_succ n)
  rcases begun_step hb (Nat.le_refl _) δ r with ⟨js', j, g, e, h', -⟩ | ⟨-, h⟩
  · have := begun_self h'
    subst this
    subst e
    refine ⟨j, hb, Nat.le_trans (jobTime_all δ r j) ?_⟩
    have : 18 * r * δ = 6 * (3 * r * δ) := by rw [← Nat.mul_assoc, ← Nat.mul_assoc]
    show cacheTime δ r .boot + (cacheTime δ r .bypass + (cacheTime δ r .temps + (cacheTime δ r .fans +
      (cacheTime δ r .profiles + (cacheTime δ r .errors + 0))))) + 4 * δ ≤ _
    simp only [cacheTime, turnover, Nat.add_mul]
    omega
  · exact absurd (h h1) h2

/-- A request that is no flush request never asks the worker for anything. -/
theorem no_flush {cv : FloatConv} {c : Call} (hc : OnServer c) (hn : ∀ t, c ≠ .flush t) {as : List Act}
    {p q : Prog Resp} {t : Int} (hp : Path (c.prog cv) as p) (hq : p.Next (.sendFlush t) q) : False := by
  have get : ∀ {β : Type} (id : CacheId) (conv : CVal id → β) (h : Rpc β → Resp),
      ((protobuf id conv).bind fun x => .ret (h x)).Ok (RC 0 (fun _ => 0) 0 0) (fun _ _ => True) 0 := by
    intro β id conv h _
    exact ⟨Nat.le_refl _, fun _ _ => ⟨Nat.le_refl _, fun _ => ⟨Nat.le_refl _, trivial⟩⟩⟩
  have : ∃ g, (c.prog cv).Ok (RC 0 (fun _ => 0) 0 0) (fun _ _ => True) g := by
    cases c with
    | flush t => exact absurd rfl (hn t)
    | getBoot | getBypass | getErrors | getFans | getProfiles | getTemps => exact ⟨0, get _ _ _⟩
    | setComfort => exact ⟨_, ok_map rc_setComfortTemp⟩
    | setSpeed => exact ⟨_, ok_map rc_setFanSpeed⟩
    | setProfile => exact ⟨_, ok_map rc_setFanProfileRpc⟩
    | _ => exact absurd hc not_false
  obtain ⟨g, hg⟩ := this
  exact (ok_next (rc_path hp hg).1 hq trivial).1

/-- If there are no flush requests, all jobs are done within the time of the fast timer's. -/
theorem jobs_ticks (hS : ∀ c, S.calls c → OnServer c) (hf : Execution S w f)
    (hn : ∀ n, ∀ c ∈ (f n).clients, ∀ t, c.call ≠ .flush t) (δ r : Nat) :
    JobsWithin f δ r (10000000000 + (82 + 6 * r) * δ) := by
  intro n h1 h2
  have tick : ∀ k, (f (n + 1)).worker = onTick k →
      ∃ j, Begun f n (n + 1) [j] ∧ jobTime δ r j ≤ 10000000000 + (82 + 6 * r) * δ := by
    intro k h
    refine ⟨.tick k, .tick .start h1 h, ?_⟩
    have : 6 * r * δ = 2 * (3 * r * δ) := by rw [← Nat.mul_assoc, ← Nat.mul_assoc]
    cases k <;> simp only [jobTime, Job.caches, tier, List.map_cons, List.map_nil, List.sum_cons, List.sum_nil, cacheTime,
      turnover, Nat.add_mul] <;> omega
  rcases hf.next n with h | h
  · generalize hx : f (n + 1) = s' at h h2
    cases h with
    | work hw =>
      cases hw with
      | client => exact absurd h1 h2
      | worker a p sh hn' _ => rw [h1] at hn'; cases hn'
      | flush i c t p hc hnx _ =>
        obtain ⟨g, hi⟩ := inv1 (run_reach hf n)
        have hcall := hS _ (hi.call i c hc)
        exact (no_flush hcall (hn n c (List.mem_of_getElem? hc)) (hi.hist.path i c hc).1 hnx).elim
      | flushed i c b p q _ _ hn' => rw [h1] at hn'; cases hn'
    | tick k => exact tick k (by rw [hx])
    | arrive => exact absurd h1 h2
    | environment => exact absurd h1 h2
  · rw [h] at h2; exact absurd h1 h2

theorem tickTime_fast (δ r A j : Nat) :
    tickTime δ r A j .fast = 15000000000 + (j + 1) * (A + δ) + (82 + 6 * r) * δ := by
  have : 6 * r * δ = 2 * (3 * r * δ) := by rw [← Nat.mul_assoc, ← Nat.mul_assoc]
  simp only [tickTime, tickPeriod, jobTime, Job.caches, tier, List.map_cons, List.map_nil, List.sum_cons, List.sum_nil,
    cacheTime, turnover, Nat.add_mul]
  omega

/-- **C110** (3) The temperatures and the fans' values are at most 19.5 s old, plus 10 s for each job the worker was at or
did first, if nobody asks for a flush; 24 s instead of 10 s otherwise (`jobs_all`). -/
theorem C110_fast {δ r j : Nat} (T : Timely S w f δ r) (hw : ∀ id, (w.get id).last ≤ w.clock)
    (hk : Ticking f .fast δ j) {id : CacheId} (hid : id = .temps ∨ id = .fans) {n n' D : Nat}
    (hD : ((∀ n, ∀ c ∈ (f n).clients, ∀ t, c.call ≠ .flush t) ∧
        D = 15000000000 + (j + 1) * (10000000000 + (83 + 6 * r) * δ) + (82 + 6 * r) * δ) ∨
      D = 15000000000 + (j + 1) * (24000000000 + (188 + 18 * r) * δ) + (82 + 6 * r) * δ)
    (hn : (f 0).sh.world.clock + (D : Nat) < (f n).sh.world.clock)
    (hok : ∀ a b ext, a < b → b < n → (f n).sh.world.clock - (D : Nat) ≤ (f a).sh.world.clock →
      TakesTick f .fast a → (f b).worker = .ret () → (f b).sh.trace = (f a).sh.trace ++ ext → WorkerSucceeds id ext)
    (hnn : n ≤ n') {i : Nat} (hi : (f n).clients.length ≤ i) {v : Resp} (ha : Answered (f n') i (getCall id) v) :
    ∃ pre c post, (f n').sh.trace = pre ++ (.client i, .load id c) :: post ∧
      c = current id (w.get id) pre ∧ v = getAnswer id c.val ∧
      (f n).sh.world.clock - (D + 4500000000 : Nat) ≤ c.last := by
  have hid' : id ∈ tier .fast := by rcases hid with rfl | rfl <;> simp [tier]
  rcases hD with ⟨hno, rfl⟩ | rfl
  · have e := tickTime_fast δ r (10000000000 + (82 + 6 * r) * δ) j
    rw [show 10000000000 + (82 + 6 * r) * δ + δ = 10000000000 + (83 + 6 * r) * δ by
      simp only [Nat.add_mul]; omega] at e
    rw [← e] at hn hok ⊢
    exact C110_age T (jobs_ticks T.calls T.run hno δ r) hw hk hid' hn hok hnn hi ha
  · have e := tickTime_fast δ r (24000000000 + (187 + 18 * r) * δ) j
    rw [show 24000000000 + (187 + 18 * r) * δ + δ = 24000000000 + (188 + 18 * r) * δ by
      simp only [Nat.add_mul]; omega] at e
    rw [← e] at hn hok ⊢
    exact C110_age T (jobs_all T.run δ r) hw hk hid' hn hok hnn hi ha

/-! ## An example -/

open Play

/-- The timer fires after five seconds and the worker refreshes the temperatures and the fans. -/
def tickCycle : List Beat := [.rest 5000000000, .act (.tick .fast)] ++ (steps 22 .worker).map .act

/-- Half a minute, then somebody asks for the temperatures. -/
def tickBeats : List Beat :=
  tickCycle ++ tickCycle ++ tickCycle ++ tickCycle ++ tickCycle ++ tickCycle ++ [.act (.arrive .getTemps)] ++
    (steps 3 (.client 0)).map .act

def _root_.Comfo.Prog.answers : Prog α → Bool
  | .sendFlushed _ _ => true
  | _ => false

def ticks : Nat → Sys Vent := play ventServed tickBeats (Sys.initial duelStart)

theorem ticks_fine : Fine ventServed tickBeats (Sys.initial duelStart) 0 where
  env l := ⟨l.broken, l.mute, rfl⟩
  calls c hc := by
    have : tickBeats.all (fun b => match b with
      | .act (.arrive c) => c = .getTemps
      | _ => true) = true := by decide +kernel
    rw [of_decide_eq_true (List.all_eq_true.1 this _ hc)]
    trivial
  runs := by decide +kernel
  prompt := by decide +kernel
  queued := by decide +kernel

theorem ticks_end {n : Nat} (h : 148 ≤ n) : ticks n = ticks 148 :=
  play_end (show tickBeats.length ≤ n from h)

theorem ticks_all {P : Sys Vent → Prop} (h : ∀ n : Fin 149, P (ticks n)) (n : Nat) : P (ticks n) := by
  rcases Nat.lt_or_ge n 149 with hn | hn
  · exact h ⟨n, hn⟩
  · rw [ticks_end (by omega)]; exact h 148

theorem ticks_timely : Timely ventServed duelStart ticks 0 1 where
  line := vent_noPanic
  calls _ h := h
  run := play_run ticks_fine
  prompt := play_prompt ticks_fine
  queued := play_queued ticks_fine
  handover b m n _ h := by
    have : ∀ n, (ticks n).worker.answers = false :=
      ticks_all (P := fun s => s.worker.answers = false) (by decide +kernel)
    obtain ⟨⟨p, hp⟩, -⟩ := h m (Nat.le_refl _) ‹_›
    have := this m
    revert this hp
    generalize (ticks m).worker = q
    intro hp this
    cases hp; cases this
  readers n id := by
    have : (ticks n).clients.length ≤ 1 := ticks_all (P := fun s => s.clients.length ≤ 1) (by decide +kernel) n
    exact Nat.le_trans List.countP_le_length this

/-- The timer fires in the second step of each cycle. -/
theorem ticks_take {q : Nat} (h : q < 6) : TakesTick ticks .fast (24 * q + 1) := by
  have hb : tickBeats[24 * q + 1]? = some (.act (.tick .fast)) := by
    match q, h with
    | 0, _ | 1, _ | 2, _ | 3, _ | 4, _ | 5, _ => rfl
  have := play_beat ticks_fine.runs hb
  simp only [beat, Sys.exec1] at this
  split at this
  · rename_i hw
    exact ⟨waits_iff hw, (Option.some.inj this).symm⟩
  · cases this

/-- The time. -/
theorem ticks_clock (n : Nat) :
    (ticks n).sh.world.clock = 1000000000000 + 5000000000 * ((min 6 ((n + 23) / 24) : Nat) : Int) := by
  have : ∀ n : Fin 149, (ticks n).sh.world.clock =
      1000000000000 + 5000000000 * ((min 6 ((n.val + 23) / 24) : Nat) : Int) := by decide +kernel
  rcases Nat.lt_or_ge n 149 with hn | hn
  · exact this ⟨n, hn⟩
  · rw [ticks_end (by omega), show min 6 ((n + 23) / 24) = 6 by omega]
    exact this 148

/-- The worker takes up nothing else. -/
theorem ticks_only {n : Nat} (h1 : (ticks n).worker = .ret ()) (h2 : (ticks (n + 1)).worker ≠ .ret ()) :
    TakesTick ticks .fast n := by
  have : ∀ n : Fin 149, (ticks n).worker.waits = true → (ticks (n + 1)).worker.waits = false →
      n.val % 24 = 1 ∧ n.val < 144 := by decide +kernel
  rcases Nat.lt_or_ge n 149 with hn | hn
  · obtain ⟨e1, e2⟩ := this ⟨n, hn⟩ (by rw [h1]; rfl) (by
      cases h : (ticks (n + 1)).worker.waits with
      | false => rfl
      | true => exact absurd (waits_iff h) h2)
    have e1 : n % 24 = 1 := e1
    have e2 : n < 144 := e2
    rw [show n = 24 * (n / 24) + 1 by omega]
    exact ticks_take (by omega)
  · rw [ticks_end (by omega)] at h1 h2
    exact absurd h1 h2

theorem ticks_ticking : Ticking ticks .fast 0 0 where
  soon m c n hmc hcn hno _ := by
    left
    rw [ticks_clock, ticks_clock]
    have : min 6 ((n + 1 + 23) / 24) ≤ min 6 ((m + 23) / 24) + 1 := by
      rcases Nat.lt_or_ge (min 6 ((m + 23) / 24) + 1) (min 6 ((n + 1 + 23) / 24)) with h | h
      · exact absurd (ticks_take (q := (m + 23) / 24) (by omega)) (hno _ (by omega) (by omega))
      · exact h
    simp only [Tick.period, fastCacheStale]
    omega
  turn m c n js hmc hno _ hb := by
    have hcn := begun_le hb
    suffices js = [] by rw [this]; exact Nat.le_refl _
    induction hcn generalizing js with
    | refl => exact begun_self hb
    | @step n hcn ih =>
      rcases begun_step hb hcn 0 0 with ⟨_, _, _, _, _, h1, h2, _⟩ | ⟨hb', _⟩
      · exact absurd (ticks_only h1 h2) (hno n (Nat.le_trans hmc hcn) (Nat.lt_succ_self _))
      · exact ih js (fun i i1 i2 => hno i i1 (by omega)) hb'

/-- Every refresh the worker began is followed by what was read. -/
def storesB (id : CacheId) : List (Tid × Act) → Bool
  | [] => true
  | (t, a) :: rest => (match t, a with
    | .worker, .note id' ts => id' != id || rest.any fun x => match x with
      | (.worker, .store id'' e) => id'' == id && e.last == ts
      | _ => false
    | _, _ => true) && storesB id rest

theorem storesB_sound {id : CacheId} {pre ext : List (Tid × Act)} (h : storesB id (pre ++ ext) = true) :
    WorkerSucceeds id ext := by
  induction pre with
  | cons x pre ih =>
    simp only [List.cons_append, storesB, Bool.and_eq_true] at h
    exact ih h.2
  | nil =>
    intro ts hts
    rw [List.nil_append] at h
    induction ext with
    | nil => cases hts
    | cons x ext ih =>
      simp only [storesB, Bool.and_eq_true] at h
      rcases List.mem_cons.1 hts with rfl | hts
      · have h := h.1
        simp only [bne_self_eq_false, Bool.false_or, List.any_eq_true] at h
        obtain ⟨⟨u, a⟩, h1, h2⟩ := h
        split at h2
        · rename_i id'' e he
          cases he
          simp only [Bool.and_eq_true, beq_iff_eq] at h2
          obtain ⟨rfl, rfl⟩ := h2
          exact ⟨e.val, List.mem_cons_of_mem _ h1⟩
        · cases h2
      · obtain ⟨v, hv⟩ := ih h.2 hts
        exact ⟨v, List.mem_cons_of_mem _ hv⟩

/-- Half a minute after the start, C110 says that the temperatures served are at most 29.5 s old; in fact they have just
been read. -/
example : ∃ pre c post v, Answered (ticks 148) 0 .getTemps v ∧
    (ticks 148).sh.trace = pre ++ (.client 0, .load .temps c) :: post ∧
    c = current .temps (duelStart.get .temps) pre ∧ v = getAnswer .temps c.val ∧
    (ticks 144).sh.world.clock - 29500000000 ≤ c.last := by
  obtain ⟨v, hv⟩ : ∃ v, Answered (ticks 148) 0 .getTemps v := ⟨_, rfl⟩
  obtain ⟨pre, c, post, h1, h2, h3, h4⟩ := C110_fast (j := 0) (n := 144) (n' := 148) (D := 25000000000) (i := 0)
    ticks_timely (by intro id; cases id <;> decide +kernel) ticks_ticking (.inl rfl) (.inl ⟨fun n c hc t => by
      have : ∀ n, ((ticks n).clients.all fun c => c.call = .getTemps) = true :=
        ticks_all (P := fun s => (s.clients.all fun c => c.call = .getTemps) = true) (by decide +kernel)
      rw [of_decide_eq_true (List.all_eq_true.1 (this n) c hc)]
      exact nofun, rfl⟩) (by decide +kernel)
    (fun a b ext hab hb _ _ hi he => by
      have : ∀ n : Fin 149, (ticks n).worker.waits = true → storesB .temps (ticks n).sh.trace = true := by
        decide +kernel
      refine storesB_sound (pre := (ticks a).sh.trace) ?_
      rw [← he]
      exact this ⟨b, by omega⟩ (by show (ticks b).worker.waits = true; rw [hi]; rfl))
    (by omega) (by decide +kernel) hv
  exact ⟨pre, c, post, v, hv, h1, h2, h3, h4⟩

end Comfo.Props
