import Verif.Lemmas.Jobs
import Verif.Props.Takes
/-!
# C108: how long the cache worker is busy, and a flush takes

One goroutine serves the timers and the flush requests, one after the other, and may have to wait for the unit
and for requests that change a setting. What it does for each of them is done in a known time, and so a flush
request waits no longer than what is done before it takes.
-/
namespace Comfo.Props
open Spec Pace

variable {S : Setup σ} {w : World σ} {f : Nat → Sys σ}

/-- A step of the worker with respect to its jobs. -/
theorem begun_step {m n : Nat} {js : List Job} (h : Begun f m (n + 1) js) (hmn : m ≤ n) (δ r : Nat) :
    (∃ js' j g, js = js' ++ [j] ∧ Begun f m n js' ∧ (f n).worker = .ret () ∧ (f (n + 1)).worker ≠ .ret () ∧
      (f (n + 1)).worker.Ok (RJ δ r) (fun _ _ => True) g ∧ g + δ ≤ jobTime δ r j) ∨
    (Begun f m n js ∧ ((f n).worker = .ret () → (f (n + 1)).worker = .ret ())) := by
  cases h with
  | start => omega
  | @tick _ js k h1 h2 h3 =>
    refine .inl ⟨js, _, _, rfl, h1, h2, ?_, h3 ▸ rj_tick k (Nat.le_refl _), ?_⟩
    · rw [h3]; cases k <;> exact nofun
    · simp only [jobTime, Job.caches]; omega
  | @flush _ js t h1 h2 h3 =>
    refine .inl ⟨js, _, _, rfl, h1, h2, ?_, h3 ▸ rj_flush t (Nat.le_refl _), ?_⟩
    · rw [h3, flushCaches_eq]
      split
      · rename_i ids _
        cases ids <;> exact nofun
      · exact nofun
    · simp only [jobTime, Job.caches]; omega
  | goOn h1 h2 => exact .inr ⟨h1, h2⟩

theorem begun_le {m n : Nat} {js : List Job} (h : Begun f m n js) : m ≤ n := by
  induction h <;> omega

theorem begun_self {m : Nat} {js : List Job} (h : Begun f m m js) : js = [] := by
  generalize hk : m = k at h
  have : ∀ {k : Nat} {js : List Job}, Begun f m k js → k = m → js = [] := by
    intro k js h e
    cases h with
    | start => rfl
    | tick h => exact absurd (begun_le h) (by omega)
    | flush h => exact absurd (begun_le h) (by omega)
    | goOn h => exact absurd (begun_le h) (by omega)
  subst hk
  exact this h rfl

/-- **C108** (1) What the worker takes up, timer or flush, is done in the time known for it. -/
theorem C108_job (hL : S.line.NoPanic) (hS : ∀ c, S.calls c → OnServer c) (hf : Execution S w f) {δ : Nat}
    (hp : Prompt S.line f δ) (hq : Queued f) (hh : Handover f δ) {m n r : Nat} {j : Job}
    (hj : Begun f m (m + 1) [j]) (hmn : m < n) (hb : ∀ k, m < k → k ≤ n → (f k).worker ≠ .ret ())
    (hr : ∀ k id, m < k → k ≤ n → readers (f k) id ≤ r) :
    (f (n + 1)).sh.world.clock ≤ (f (m + 1)).sh.world.clock + (jobTime δ r j : Nat) := by
  rcases begun_step hj (Nat.le_refl _) δ r with ⟨js', j', g, e, -, -, -, hg, hle⟩ | ⟨h, -⟩
  · obtain ⟨rfl, e⟩ := List.append_inj' (s₁ := []) e rfl
    cases e
    have := busy_time (m := m + 1) hL hS hf hp hq hh hmn hr hg hb
    omega
  · cases begun_self h

/-- In every execution it is clear which jobs the worker took up. -/
theorem C108_begun (hf : Execution S w f) {m n : Nat} (hmn : m ≤ n) : ∃ js, Begun f m n js := by
  induction hmn with
  | refl => exact ⟨[], .start⟩
  | @step n _ ih =>
    obtain ⟨js, h⟩ := ih
    have same : (f (n + 1)).worker = (f n).worker → ∃ js, Begun f m (n + 1) js :=
      fun e => ⟨js, .goOn h fun e' => e.trans e'⟩
    rcases hf.next n with hs | hs
    · generalize hx : f (n + 1) = s' at hs
      cases hs with
      | work hw =>
        cases hw with
        | client => exact same (by rw [hx])
        | worker a p sh hn _ => exact ⟨js, .goOn h fun e => by rw [e] at hn; cases hn⟩
        | flush i c t p _ _ hw => exact ⟨_, .flush h hw (t := t) (by rw [hx])⟩
        | flushed i c b p q _ _ hn => exact ⟨js, .goOn h fun e => by rw [e] at hn; cases hn⟩
      | tick k hw => exact ⟨_, .tick h hw (k := k) (by rw [hx])⟩
      | arrive => exact same (by rw [hx])
      | environment => exact same (by rw [hx])
    · exact same (by rw [hs])

theorem begun_split {m n : Nat} {js : List Job} (h : Begun f m n js) {c : Nat} (h1 : m ≤ c) (h2 : c ≤ n) :
    ∃ js₁ js₂, js = js₁ ++ js₂ ∧ Begun f c n js₂ := by
  induction h with
  | start =>
    have : c = m := by omega
    subst this
    exact ⟨[], [], rfl, .start⟩
  | @tick n js k h e1 e2 ih =>
    by_cases hc : c = n + 1
    · subst hc; exact ⟨_, [], (List.append_nil _).symm, .start⟩
    · obtain ⟨a, b, rfl, hb⟩ := ih (by omega)
      exact ⟨a, _, by rw [List.append_assoc], .tick hb e1 e2⟩
  | @flush n js k h e1 e2 ih =>
    by_cases hc : c = n + 1
    · subst hc; exact ⟨_, [], (List.append_nil _).symm, .start⟩
    · obtain ⟨a, b, rfl, hb⟩ := ih (by omega)
      exact ⟨a, _, by rw [List.append_assoc], .flush hb e1 e2⟩
  | @goOn n js h e1 ih =>
    by_cases hc : c = n + 1
    · subst hc; exact ⟨_, [], (List.append_nil _).symm, .start⟩
    · obtain ⟨a, b, rfl, hb⟩ := ih (by omega)
      exact ⟨a, _, rfl, .goOn hb e1⟩

theorem begun_sum {m n : Nat} {js : List Job} (h : Begun f m n js) {c : Nat} (h1 : m ≤ c) (h2 : c ≤ n)
    (g : Job → Nat) : ∃ js', Begun f c n js' ∧ (js'.map g).sum ≤ (js.map g).sum := by
  obtain ⟨a, b, rfl, hb⟩ := begun_split h h1 h2
  exact ⟨b, hb, by rw [List.map_append, List.sum_append]; omega⟩

/-- And those of an earlier part. -/
theorem begun_init {m n : Nat} {js : List Job} (h : Begun f m n js) {d : Nat} (h1 : m ≤ d) (h2 : d ≤ n)
    (g : Job → Nat) : ∃ js', Begun f m d js' ∧ (js'.map g).sum ≤ (js.map g).sum := by
  induction h with
  | start =>
    have : d = m := by omega
    subst this
    exact ⟨[], .start, by simp⟩
  | @tick n js k h e1 e2 ih =>
    by_cases hc : d = n + 1
    · subst hc; exact ⟨_, .tick h e1 e2, Nat.le_refl _⟩
    · obtain ⟨a, ha, hs⟩ := ih (by omega)
      exact ⟨a, ha, by rw [List.map_append, List.sum_append]; omega⟩
  | @flush n js k h e1 e2 ih =>
    by_cases hc : d = n + 1
    · subst hc; exact ⟨_, .flush h e1 e2, Nat.le_refl _⟩
    · obtain ⟨a, ha, hs⟩ := ih (by omega)
      exact ⟨a, ha, by rw [List.map_append, List.sum_append]; omega⟩
  | @goOn n js h e1 ih =>
    by_cases hc : d = n + 1
    · subst hc; exact ⟨_, .goOn h e1, Nat.le_refl _⟩
    · exact ih (by omega)

/-! ## The request -/

/-- How far request `i` has got. -/
def stage (f : Nat → Sys σ) (i k : Nat) : Nat := (actsOf (.client i) (f k).sh.trace).length

/-- What the request is about to do. -/
theorem at_stage (hf : Execution S w f) {i m : Nat} {t : Int}
    (ha : (f m).clients[i]? = some { call := .flush t, prog := (Call.flush t).prog S.cv }) {k : Nat} (hk : m ≤ k) :
    ∃ x, (f k).clients[i]? = some x ∧ x.call = .flush t ∧
      ((stage f i k = 0 ∧ ∃ p, x.prog = .now p) ∨ (stage f i k = 1 ∧ ∃ p, x.prog = .sendFlush t p) ∨
      (stage f i k = 2 ∧ ∃ p, x.prog = .recvFlushed p) ∨ (stage f i k = 3 ∧ ∃ p, x.prog = .now p) ∨
      (stage f i k = 4 ∧ ∃ v, x.prog = .ret v)) := by
  obtain ⟨x, hx, hxc⟩ := client_stays hf ha k hk
  obtain ⟨g, hi⟩ := inv1 (run_reach hf k)
  have := (hi.hist.path i x hx).1
  rw [hxc] at this
  exact ⟨x, hx, hxc, flush_stages this⟩

theorem stage_mono (hf : Execution S w f) (i : Nat) {m n : Nat} (h : m ≤ n) : stage f i m ≤ stage f i n := by
  obtain ⟨as, e⟩ := acts_grow hf (.client i) h
  unfold stage
  rw [← e, List.length_append]; omega

theorem stage_still (hf : Execution S w f) {i m n : Nat} (h : m ≤ n) (he : stage f i m = stage f i n) :
    Still f (.client i) m n := by
  obtain ⟨as, e⟩ := acts_grow hf (.client i) h
  unfold stage at he
  have hl := congrArg List.length e
  rw [List.length_append] at hl
  have : as = [] := List.eq_nil_of_length_eq_zero (by omega)
  subst this
  rw [List.append_nil] at e
  exact e.symm

/-- The request looks at its clock. -/
theorem now_time (hf : Execution S w f) {δ : Nat} (hp : Prompt S.line f δ) {i m c d v : Nat} {t : Int}
    (ha : (f m).clients[i]? = some { call := .flush t, prog := (Call.flush t).prog S.cv }) (hv : v = 0 ∨ v = 3)
    (h1 : m ≤ c) (h2 : c ≤ d) (h3 : ∀ k, c ≤ k → k ≤ d → stage f i k = v) :
    (f (d + 1)).sh.world.clock ≤ (f c).sh.world.clock + (δ : Nat) := by
  have at_now : ∀ k, c ≤ k → k ≤ d → ∃ x p, (f k).clients[i]? = some x ∧ x.prog = .now p := by
    intro k k1 k2
    have hk := h3 k k1 k2
    obtain ⟨x, hx, -, h⟩ := at_stage hf ha (Nat.le_trans h1 k1)
    rcases h with ⟨e, p, hp⟩ | ⟨e, -⟩ | ⟨e, -⟩ | ⟨e, p, hp⟩ | ⟨e, -⟩
    · exact ⟨x, p, hx, hp⟩
    · omega
    · omega
    · exact ⟨x, p, hx, hp⟩
    · omega
  have hst := stage_still hf h2 ((h3 c (Nat.le_refl _) h2).trans (h3 d h2 (Nat.le_refl _)).symm)
  obtain ⟨x, p, hx, hpx⟩ := at_now c (Nat.le_refl _) h2
  refine hp (.client i) c d h2 (fun k k1 k2 => ?_) hst (.now 0) ⟨x, p 0, hx, by rw [hpx]; exact .now 0⟩
  obtain ⟨x, p, hx, hpx⟩ := at_now k k1 k2
  obtain ⟨a, sh', hac⟩ : ∃ a sh', Acts S.line (.client i) (.now a) (f k).sh sh' := ⟨_, _, .now⟩
  obtain ⟨s', h3, h4⟩ := canAct (s := f k) (t := .client i) ⟨x, p a, hx, by rw [hpx]; exact .now a⟩ hac
  exact ⟨s', h3, _, by rw [h4, acts_trace hac]⟩

/-- While the worker is idle a flush request does not wait. -/
theorem idle_time (hf : Execution S w f) {δ : Nat} (hp : Prompt S.line f δ) {i m c d : Nat} {t : Int}
    (ha : (f m).clients[i]? = some { call := .flush t, prog := (Call.flush t).prog S.cv })
    (h1 : m ≤ c) (h2 : c ≤ d) (h3 : ∀ k, c ≤ k → k ≤ d → stage f i k = 1 ∨ stage f i k = 2)
    (hw : ∀ k, c ≤ k → k ≤ d → (f k).worker = .ret ()) :
    (f (d + 1)).sh.world.clock ≤ (f c).sh.world.clock + (δ : Nat) := by
  have at_send : ∀ k, c ≤ k → k ≤ d → stage f i k = 1 ∧
      ∃ x p, (f k).clients[i]? = some x ∧ x.prog = .sendFlush t p := by
    intro k k1 k2
    have hk := h3 k k1 k2
    obtain ⟨x, hx, -, h⟩ := at_stage hf ha (Nat.le_trans h1 k1)
    rcases h with ⟨e, -⟩ | ⟨e, p, hp⟩ | ⟨e, p, hp⟩ | ⟨e, -⟩ | ⟨e, -⟩
    · omega
    · exact ⟨e, x, p, hx, hp⟩
    · exfalso
      obtain ⟨g, hi⟩ := inv1 (run_reach hf k)
      have hG : Glob1 g (f k).sh := hi.glob
      have hidle : g .worker = idle1 := by
        have := hi.worker
        rw [hw k k1 k2] at this
        exact this
      have hok := (hi.client i x hx).1
      rw [hp] at hok
      have na := not_awaiting hG (by rw [hidle]; rfl) i
      exact (hok true fun v hv => by rw [na] at hv; cases hv).1.1 na
    · omega
    · omega
  have hst := stage_still hf h2 ((at_send c (Nat.le_refl _) h2).1.trans (at_send d h2 (Nat.le_refl _)).1.symm)
  obtain ⟨-, x, p, hx, hpx⟩ := at_send c (Nat.le_refl _) h2
  refine hp (.client i) c d h2 (fun k k1 k2 => ?_) hst (.sendFlush t) ⟨x, p, hx, by rw [hpx]; exact .sendFlush⟩
  obtain ⟨-, x, p, hx, hpx⟩ := at_send k k1 k2
  exact ⟨_, .flush i x t p hx (by rw [hpx]; exact .sendFlush) (hw k k1 k2), _, rfl⟩

/-- While a flush request waits, time passes only for what the worker does. -/
theorem meeting (hL : S.line.NoPanic) (hS : ∀ c, S.calls c → OnServer c) (hf : Execution S w f) {δ : Nat}
    (hp : Prompt S.line f δ) (hq : Queued f) (hh : Handover f δ) {i m c d r : Nat} {t : Int} {js : List Job}
    (ha : (f m).clients[i]? = some { call := .flush t, prog := (Call.flush t).prog S.cv })
    (h1 : m ≤ c) (hr : ∀ k id, c ≤ k → k ≤ d → readers (f k) id ≤ r)
    (hb : Begun f c d js) (h3 : ∀ k, c ≤ k → k ≤ d → stage f i k = 1 ∨ stage f i k = 2) :
    (f (d + 1)).sh.world.clock + (2 * δ : Nat) ≤ (f c).sh.world.clock +
      (jobTime δ r (.flush 10) + (js.map (jobTime δ r)).sum : Nat) := by
  obtain ⟨g₀, hg₀, hle⟩ := worker_rest (run_reach hf c) δ r
  have key : ∀ {d : Nat} {js : List Job}, Begun f c d js → (∀ k id, c ≤ k → k ≤ d → readers (f k) id ≤ r) →
      (∀ k, c ≤ k → k ≤ d → stage f i k = 1 ∨ stage f i k = 2) →
      ∃ e, c ≤ e ∧ e ≤ d ∧
        (((∀ k, e ≤ k → k ≤ d → (f k).worker = .ret ()) ∧
          (f e).sh.world.clock ≤ (f c).sh.world.clock + (g₀ + (js.map (jobTime δ r)).sum : Nat)) ∨
        ∃ g, (∀ k, e ≤ k → k ≤ d → (f k).worker ≠ .ret ()) ∧
          (f e).worker.Ok (RJ δ r) (fun _ _ => True) g ∧
          (f e).sh.world.clock + (g : Nat) ≤
            (f c).sh.world.clock + (g₀ + (js.map (jobTime δ r)).sum : Nat)) := by
    intro d
    induction d with
    | zero =>
      intro js hb _ _
      have : c = 0 := by have := begun_le hb; omega
      subst this
      cases hb
      refine ⟨0, Nat.le_refl _, Nat.le_refl _, ?_⟩
      by_cases hw : (f 0).worker = .ret ()
      · refine .inl ⟨fun k k1 k2 => ?_, by simp; omega⟩
        rw [show k = 0 by omega]; exact hw
      · refine .inr ⟨g₀, fun k k1 k2 => ?_, hg₀, by simp⟩
        rw [show k = 0 by omega]; exact hw
    | succ d ih =>
      intro js hb hr h3
      by_cases hc : c = d + 1
      · subst hc
        cases begun_self hb
        refine ⟨d + 1, Nat.le_refl _, Nat.le_refl _, ?_⟩
        by_cases hw : (f (d + 1)).worker = .ret ()
        · refine .inl ⟨fun k k1 k2 => ?_, by simp; omega⟩
          rw [show k = d + 1 by omega]; exact hw
        · refine .inr ⟨g₀, fun k k1 k2 => ?_, hg₀, by simp⟩
          rw [show k = d + 1 by omega]; exact hw
      · have hcd : c ≤ d := by have := begun_le hb; omega
        rcases begun_step hb hcd δ r with ⟨js', j, g, rfl, hb', hw, hw', hg, hgj⟩ | ⟨hb', hw⟩
        · obtain ⟨e, e1, e2, ⟨hi, ht⟩ | ⟨g', hi, -, -⟩⟩ := ih hb' (fun k id k1 k2 => hr k id k1 (by omega))
            (fun k k1 k2 => h3 k k1 (by omega))
          · have := idle_time hf hp ha (Nat.le_trans h1 e1) e2
              (fun k k1 k2 => h3 k (Nat.le_trans e1 k1) (by omega)) hi
            refine ⟨d + 1, by omega, Nat.le_refl _, .inr ⟨g, fun k k1 k2 => ?_, hg, ?_⟩⟩
            · rw [show k = d + 1 by omega]; exact hw'
            · rw [List.map_append, List.sum_append]
              simp only [List.map_cons, List.map_nil, List.sum_cons, List.sum_nil]
              omega
          · exact absurd hw (hi d e2 (Nat.le_refl _))
        · obtain ⟨e, e1, e2, ⟨hi, ht⟩ | ⟨g', hi, hok, ht⟩⟩ := ih hb' (fun k id k1 k2 => hr k id k1 (by omega))
            (fun k k1 k2 => h3 k k1 (by omega))
          · refine ⟨e, e1, by omega, .inl ⟨fun k k1 k2 => ?_, ht⟩⟩
            by_cases hk : k = d + 1
            · subst hk; exact hw (hi d e2 (Nat.le_refl _))
            · exact hi k k1 (by omega)
          · by_cases hn : (f (d + 1)).worker = .ret ()
            · have := busy_time hL hS hf hp hq hh e2 (fun k id k1 k2 => hr k id (by omega) (by omega)) hok hi
              refine ⟨d + 1, by omega, Nat.le_refl _, .inl ⟨fun k k1 k2 => ?_, by omega⟩⟩
              rw [show k = d + 1 by omega]; exact hn
            · refine ⟨e, e1, by omega, .inr ⟨g', fun k k1 k2 => ?_, hok, ht⟩⟩
              by_cases hk : k = d + 1
              · subst hk; exact hn
              · exact hi k k1 (by omega)
  obtain ⟨e, e1, e2, ⟨hi, ht⟩ | ⟨g, hi, hok, ht⟩⟩ := key hb hr h3
  · have := idle_time hf hp ha (Nat.le_trans h1 e1) e2 (fun k k1 k2 => h3 k (Nat.le_trans e1 k1) k2) hi
    omega
  · have := busy_time hL hS hf hp hq hh e2 (fun k id k1 k2 => hr k id (Nat.le_trans e1 k1) k2) hok hi
    omega

/-- **C108** (2) A flush request that is not answered yet at step `n` arrived at most as long ago as it takes
the worker to finish what it was at, and to do what it has taken up since. -/
theorem C108_flush (hL : S.line.NoPanic) (hS : ∀ c, S.calls c → OnServer c) (hf : Execution S w f) {δ : Nat}
    (hp : Prompt S.line f δ) (hq : Queued f) (hh : Handover f δ) {i m n r : Nat} {t : Int} {js : List Job}
    (hmn : m ≤ n) (ha : (f m).clients[i]? = some { call := .flush t, prog := (Call.flush t).prog S.cv })
    (hu : ∀ v, ¬ Answered (f n) i (.flush t) v) (hr : ∀ k id, m ≤ k → k ≤ n → readers (f k) id ≤ r)
    (hb : Begun f m n js) :
    (f (n + 1)).sh.world.clock ≤ (f m).sh.world.clock +
      (jobTime δ r (.flush 10) + (js.map (jobTime δ r)).sum : Nat) := by
  have hJ : 3 * δ ≤ jobTime δ r (.flush 10) := by simp only [jobTime]; omega
  have below : ∀ k, m ≤ k → k ≤ n → stage f i k ≤ 3 := by
    intro k k1 k2
    obtain ⟨x, hx, hxc, h⟩ := at_stage hf ha k1
    rcases h with ⟨e, -⟩ | ⟨e, -⟩ | ⟨e, -⟩ | ⟨e, -⟩ | ⟨e, v, hv⟩
    · omega
    · omega
    · omega
    · omega
    · refine absurd (ret_stays hf (v := v) ?_ k2) (hu v)
      unfold Answered
      rw [hx, ← hv, ← hxc]
  -- the end
  have last : ∀ a, m ≤ a → a ≤ n → stage f i a = 3 →
      (f (n + 1)).sh.world.clock ≤ (f a).sh.world.clock + (δ : Nat) := by
    intro a a1 a2 h
    refine now_time hf hp ha (.inr rfl) a1 a2 fun k k1 k2 => ?_
    have h1 := stage_mono hf i k1
    have h2 := below k (Nat.le_trans a1 k1) k2
    omega
  -- the worker
  have middle : ∀ a, m ≤ a → a ≤ n → 1 ≤ stage f i a →
      (f (n + 1)).sh.world.clock + (δ : Nat) ≤ (f a).sh.world.clock +
        (jobTime δ r (.flush 10) + (js.map (jobTime δ r)).sum : Nat) := by
    intro a a1 a2 h
    by_cases h3 : stage f i a = 3
    · have := last a a1 a2 h3
      omega
    · obtain ⟨d, d1, d2, d3, d4⟩ := stretch (P := fun k => stage f i k ≤ 2) a2 (by
        have := below a a1 a2; show stage f i a ≤ 2; omega)
      obtain ⟨js₁, hb₁, hs₁⟩ := begun_sum hb a1 a2 (jobTime δ r)
      obtain ⟨js₂, hb₂, hs₂⟩ := begun_init hb₁ d1 d2 (jobTime δ r)
      have hm := meeting hL hS hf hp hq hh ha a1 (fun k id k1 k2 => hr k id (by omega) (by omega)) hb₂
        fun k k1 k2 => by
          have h1 := stage_mono hf i k1
          have h2 : stage f i k ≤ 2 := d3 k k1 k2
          omega
      rcases d4 with rfl | hd
      · omega
      · by_cases hdn : d = n
        · subst hdn; omega
        · have hd : ¬ stage f i (d + 1) ≤ 2 := hd
          have := below (d + 1) (by omega) (by omega)
          have := last (d + 1) (by omega) (by omega) (by omega)
          omega
  by_cases h0 : stage f i m = 0
  · obtain ⟨d, d1, d2, d3, d4⟩ := stretch (P := fun k => stage f i k = 0) hmn h0
    have hfirst := now_time hf hp ha (.inl rfl) (Nat.le_refl _) d1 d3
    rcases d4 with rfl | hd
    · omega
    · by_cases hdn : d = n
      · subst hdn; omega
      · have hd : ¬ stage f i (d + 1) = 0 := hd
        have := middle (d + 1) (by omega) (by omega) (by omega)
        omega
  · have := middle m (Nat.le_refl _) hmn (by omega)
    omega

/-- **C108** (3) So if the worker takes up at most `j` other jobs before, a flush takes at most `j + 2` times 24 s,
plus small change. -/
theorem C108_soon (hL : S.line.NoPanic) (hS : ∀ c, S.calls c → OnServer c) (hf : Execution S w f) {δ : Nat}
    (hp : Prompt S.line f δ) (hq : Queued f) (hh : Handover f δ) {i m n r j : Nat} {t : Int} {js : List Job}
    (hmn : m ≤ n) (ha : (f m).clients[i]? = some { call := .flush t, prog := (Call.flush t).prog S.cv })
    (hu : ∀ v, ¬ Answered (f n) i (.flush t) v) (hr : ∀ k id, m ≤ k → k ≤ n → readers (f k) id ≤ r)
    (hb : Begun f m n js) (hj : js.length ≤ j + 1) :
    (f (n + 1)).sh.world.clock ≤ (f m).sh.world.clock +
      ((j + 2) * (24000000000 + (187 + 18 * r) * δ) : Nat) := by
  have h1 := C108_flush hL hS hf hp hq hh hmn ha hu hr hb
  have e : jobTime δ r (.flush 10) = 24000000000 + (187 + 18 * r) * δ := by
    have : 18 * r * δ = 6 * (3 * r * δ) := by rw [← Nat.mul_assoc, ← Nat.mul_assoc]
    show cacheTime δ r .boot + (cacheTime δ r .bypass + (cacheTime δ r .temps + (cacheTime δ r .fans +
      (cacheTime δ r .profiles + (cacheTime δ r .errors + 0))))) + 4 * δ = _
    simp only [cacheTime, turnover, Nat.add_mul]
    omega
  have h2 : ∀ js : List Job, (js.map (jobTime δ r)).sum ≤ js.length * jobTime δ r (.flush 10) := by
    intro js
    induction js with
    | nil => simp
    | cons x js ih =>
      have := jobTime_all δ r x
      simp only [List.map_cons, List.sum_cons, List.length_cons, Nat.add_mul]
      omega
  have h3 := h2 js
  have h4 := Nat.mul_le_mul_right (jobTime δ r (.flush 10)) hj
  have e2 : (j + 2) * jobTime δ r (.flush 10) = (j + 1) * jobTime δ r (.flush 10) + jobTime δ r (.flush 10) := by
    rw [← Nat.add_one_mul]
  rw [← e, e2]
  omega

/-! ## An example -/

/-- The slow ticker fires, a request to flush the boot information arrives and waits for the worker, and the
worker asks the unit. -/
def sweepBefore : List Cmd := [.tick .glacial, .arrive (.flush 0), .go (.client 0)] ++ steps 6 .worker

/-- The unit answers, the worker refreshes the second cache of the ticker, then it serves the request. -/
def sweepAfter : List Cmd :=
  steps 16 .worker ++ [.go (.client 0)] ++ steps 10 .worker ++ [.go (.client 0), .go (.client 0)]

/-- While the worker waits for the unit, 0.9 s pass. -/
def sweepJump : Sys Vent :=
  let s := playing ventServed sweepBefore (Sys.initial duelStart) 9
  { s with sh := { s.sh with world := { s.sh.world with clock := s.sh.world.clock + ((900000000 : Nat) : Int) } } }

def sweep (n : Nat) : Sys Vent :=
  if n ≤ 9 then playing ventServed sweepBefore (Sys.initial duelStart) n
  else playing ventServed sweepAfter sweepJump (n - 10)

theorem sweep_run : Execution ventServed duelStart sweep where
  start := rfl
  next n := by
    unfold sweep
    rcases Nat.lt_trichotomy n 9 with h | rfl | h
    · rw [if_pos (by omega), if_pos (by omega)]
      exact playing_step (by
        intro c hc
        simp [sweepBefore, steps] at hc
        rw [hc]; trivial) (by decide +kernel) n
    · left
      rw [if_pos (by omega), if_neg (by omega)]
      exact .environment _ 900000000 ⟨_, _, rfl⟩
    · rw [if_neg (by omega), if_neg (by omega), show n + 1 - 10 = (n - 10) + 1 by omega]
      exact playing_step (by
        intro c hc
        simp [sweepAfter, steps] at hc) (by decide +kernel) _

/-- Nothing happens after step 39. -/
theorem sweep_end {n : Nat} (h : 39 ≤ n) : sweep n = sweep 39 := by
  unfold sweep playing
  rw [if_neg (by omega), if_neg (by omega), List.take_of_length_le (i := n - 10),
    List.take_of_length_le (i := 39 - 10)]
  · decide
  · show 29 ≤ n - 10
    omega

theorem sweep_all {P : Sys Vent → Prop} (h : ∀ n : Fin 40, P (sweep n)) (n : Nat) : P (sweep n) := by
  rcases Nat.lt_or_ge n 40 with hn | hn
  · exact h ⟨n, hn⟩
  · rw [sweep_end (by omega)]; exact h 39

theorem sweep_clock (n : Nat) : (n ≤ 9 → (sweep n).sh.world.clock = 1000000000000) ∧
    (10 ≤ n → (sweep n).sh.world.clock = 1000900000000) := by
  have key : ∀ n : Fin 40, (n.val ≤ 9 → (sweep n).sh.world.clock = 1000000000000) ∧
    (10 ≤ n.val → (sweep n).sh.world.clock = 1000900000000) := by decide +kernel
  rcases Nat.lt_or_ge n 40 with hn | hn
  · exact key ⟨n, hn⟩
  · rw [sweep_end (by omega)]
    exact ⟨fun h => by omega, fun _ => (key 39).2 (by decide)⟩

def _root_.Comfo.Prog.sends : Prog α → Bool
  | .sendFlush _ _ => true
  | _ => false

def _root_.Comfo.Prog.going : Prog α → Bool
  | .ret _ => false
  | _ => true

/-- Only the worker can go on if all requests wait for it. -/
theorem only_reader_moves {L : Line σ} {s s' : Sys σ} {t : Tid} (h : Moves L t s s')
    (hc : s.clients.all (fun c => c.prog.sends) = true) (hr : s.worker.isRead = true) : t = .worker := by
  obtain ⟨hw, b, hb⟩ := h
  have sends : ∀ {i : Nat} {c : Client} {a : Act} {p : Prog Resp}, s.clients[i]? = some c →
      c.prog.Next a p → ∃ v, a = .sendFlush v := by
    intro i c a p hi hn
    have := List.all_eq_true.1 hc c (List.mem_of_getElem? hi)
    revert this hn
    generalize c.prog = q
    intro hn this
    cases hn <;> first | exact ⟨_, rfl⟩ | cases this
  cases hw with
  | client i c a p sh hi hn ha =>
    obtain ⟨v, rfl⟩ := sends hi hn
    cases ha
  | worker a p sh hn ha =>
    simp only at hb
    rw [acts_trace ha] at hb
    have := List.append_cancel_left hb
    cases this; rfl
  | flush i c v p hi hn hwk => rw [hwk] at hr; cases hr
  | flushed i c v p q hi hn hwk => obtain ⟨v, h⟩ := sends hi hn; cases h

theorem sweep_reading : (sweep 9).worker.isRead = true := by decide +kernel

theorem sweep_prompt : Prompt ventServed.line sweep 10 := by
  intro t m n hmn hmv hid a ha
  have hc0 := sweep_clock m
  have hc1 := sweep_clock (n + 1)
  by_cases hj : m ≤ 9 ∧ 9 ≤ n
  · have hw : t = .worker := by
      obtain ⟨s', h⟩ := hmv 9 hj.1 hj.2
      exact only_reader_moves h (by decide +kernel) sweep_reading
    subst hw
    have hp := poised_idle sweep_run hj.1 (idle_part sweep_run hid hj.1 hj.2).1 ha
    have hr := sweep_reading
    have : lasting 10 a = 1000000000 + 10 := by
      obtain ⟨q, hn⟩ := hp
      revert hn hr
      generalize (sweep 9).worker = p
      intro hr hn
      cases hn <;> first | rfl | cases hr
    rw [this]
    omega
  · have : (10 : Int) ≤ (lasting 10 a : Nat) := by
      cases a <;> simp [lasting] <;> omega
    omega

theorem sweep_handover : Handover sweep 10 := by
  intro b m n hmn h
  have hc0 := sweep_clock m
  have hc1 := sweep_clock (n + 1)
  by_cases hj : m ≤ 9 ∧ 9 ≤ n
  · obtain ⟨⟨q, hn⟩, -⟩ := h 9 hj.1 hj.2
    have hr := sweep_reading
    revert hn hr
    generalize (sweep 9).worker = p
    intro hn hr
    cases hn; cases hr
  · omega

theorem sweep_queued : Queued sweep := by
  intro l x t m n hmn ht hid u b _ hne htr
  exfalso
  have only : ∀ {k : Nat} {t : Tid} {b : Bool}, Poised (sweep k) t (taking l b) → t = .worker := by
    intro k t b h
    cases t with
    | worker => rfl
    | client i =>
      obtain ⟨c, q, hc, hn⟩ := h
      have := sweep_all (P := fun s => s.clients.all (fun c => c.prog.wants == none) = true) (by decide +kernel) k
      have := List.all_eq_true.1 this c (List.mem_of_getElem? hc)
      revert hn this
      generalize c.prog = p
      intro hn this
      cases b <;> cases hn <;> cases this
  have h1 := only ht
  rcases step_acts (sweep_run.next n) u with e | ⟨a, hp, e⟩
  · rw [htr, actsOf_append, acts_one, if_pos rfl] at e
    have := congrArg List.length e
    simp at this
  · rw [htr, actsOf_append, acts_one, if_pos rfl] at e
    have := List.append_cancel_left e
    cases this
    exact hne ((only hp).trans h1.symm)

theorem begun_goOn {m n n' : Nat} {js : List Job} (h : Begun f m n js) (hn : n ≤ n')
    (hg : ∀ k, n ≤ k → k < n' → (f k).worker.waits = true → (f (k + 1)).worker.waits = true) :
    Begun f m n' js := by
  induction hn with
  | refl => exact h
  | @step n' hn ih =>
    refine .goOn (ih fun k k1 k2 => hg k k1 (by omega)) fun e => waits_iff (hg n' hn (Nat.lt_succ_self _) ?_)
    rw [e]; rfl

theorem sweep_begun : Begun sweep 2 38 [.flush 0] := by
  have go : ∀ k : Fin 38, 2 ≤ k.val → k.val ≠ 26 → (sweep k).worker.waits = true →
      (sweep (k + 1)).worker.waits = true := by decide +kernel
  have h1 : Begun sweep 2 26 [] := begun_goOn .start (by omega) fun k k1 k2 =>
    go ⟨k, by omega⟩ k1 (by show k ≠ 26; omega)
  have h2 : Begun sweep 2 27 ([] ++ [.flush 0]) := .flush h1 (waits_iff (by decide +kernel)) rfl
  exact begun_goOn h2 (by omega) fun k k1 k2 => go ⟨k, by omega⟩ (by show 2 ≤ k; omega) (by show k ≠ 26; omega)

theorem vent_noPanic : ventServed.line.NoPanic := fun e s => by
  simp only [ventServed, vent, ventLine]
  split <;> simp

theorem sweep_readers (k : Nat) (id : CacheId) : readers (sweep k) id ≤ 0 := by
  have := sweep_all (P := fun s => ∀ id, readers s id = 0) (by
    intro n id
    revert n
    cases id <;> decide +kernel) k id
  omega

theorem sweep_open (v : Resp) : ¬ Answered (sweep 38) 0 (.flush 0) v := by
  intro h
  unfold Answered at h
  have : (sweep 38).clients[0]?.any (fun c => c.prog.going) = true := by decide +kernel
  rw [h] at this
  cases this

/-- The request waits for 0.9 s, and `C108_flush` says that it takes no longer than 27 s: 24 s for what the worker
was at, and 3 s to refresh the boot information. -/
example : (sweep 2).clients[0]? = some { call := .flush 0, prog := (Call.flush 0).prog ventServed.cv } ∧
    (sweep 38).sh.world.clock - (sweep 2).sh.world.clock = 900000000 ∧
    (sweep 39).sh.world.clock ≤ (sweep 2).sh.world.clock + (27000000000 + 213 * 10 : Nat) ∧
    ∃ r, Answered (sweep 39) 0 (.flush 0) r := by
  refine ⟨rfl, by decide +kernel, ?_, ⟨_, rfl⟩⟩
  refine C108_flush (δ := 10) (r := 0) (n := 38) (i := 0) (t := 0) vent_noPanic (fun _ h => h) sweep_run sweep_prompt
    sweep_queued sweep_handover (by omega) rfl sweep_open (fun k id _ _ => sweep_readers k id) sweep_begun

/-- Since the worker takes up nothing else before, `C108_soon` says 48 s. -/
example : (sweep 39).sh.world.clock ≤ (sweep 2).sh.world.clock + (2 * (24000000000 + 187 * 10) : Nat) :=
  C108_soon (δ := 10) (r := 0) (j := 0) (n := 38) (i := 0) (t := 0) vent_noPanic (fun _ h => h) sweep_run sweep_prompt
    sweep_queued sweep_handover (by omega) rfl sweep_open (fun k id _ _ => sweep_readers k id) sweep_begun
    (Nat.le_refl _)

/-- The job of the ticker takes 0.9 s, and `C108_job` says that it takes no longer than 6 s. -/
example : (sweep 26).sh.world.clock ≤ (sweep 1).sh.world.clock + (6000000000 + 48 * 10 : Nat) := by
  refine C108_job (δ := 10) (r := 0) (m := 0) (n := 25) (j := .tick .glacial) vent_noPanic (fun _ h => h) sweep_run
    sweep_prompt sweep_queued sweep_handover (.tick (js := []) .start rfl rfl) (by omega) ?_
    (fun k id _ _ => sweep_readers k id)
  intro k k1 k2 e
  have : ∀ k : Fin 26, 0 < k.val → (sweep k).worker.waits = false := by decide +kernel
  have := this ⟨k, by omega⟩ k1
  simp only [e] at this
  cases this

end Comfo.Props
