import Verif.Spec.Live
import Verif.Lemmas.Interleave
/-! Helper lemmas: nobody waits for ever. -/
namespace Comfo
open Spec

theorem run_reachable {S : Setup σ} {f : Nat → Sys σ} (hr : Endless S f) (n : Nat) :
    ∃ w, Reachable S (Sys.initial w) (f n) := by
  induction n with
  | zero => exact hr.start
  | succ n ih =>
    obtain ⟨w, h⟩ := ih
    exact ⟨w, .step h (hr.step n)⟩

theorem run_inv {S : Setup σ} {f : Nat → Sys σ} (hr : Endless S f) (n : Nat) :
    ∃ g, (scheme1 S).Inv g (f n) := by
  obtain ⟨w, h⟩ := run_reachable hr n
  exact inv1 h

theorem takes_iff {t : Tid} {s s' : Sys σ} {ext : List (Tid × Act)}
    (h : s'.sh.trace = s.sh.trace ++ ext) : Takes t s s' ↔ ∃ a, (t, a) ∈ ext := by
  constructor
  · rintro ⟨e, a, h1, h2⟩
    rw [h] at h1
    exact ⟨a, List.append_cancel_left h1 ▸ h2⟩
  · rintro ⟨a, h1⟩
    exact ⟨ext, a, h, h1⟩

theorem not_takes {t : Tid} {s s' : Sys σ} (h : s'.sh.trace = s.sh.trace) : ¬ Takes t s s' := by
  rw [takes_iff (ext := []) (by simpa using h)]
  simp

/-- What a step does to a request. -/
theorem step_client {S : Setup σ} {s s' : Sys σ} (h : Step S s s') {i : Nat} {c : Client}
    (hc : s.clients[i]? = some c) :
    (s'.clients[i]? = some c ∧ ¬ Takes (.client i) s s') ∨
    ∃ a q, c.prog.Next a q ∧ s'.clients[i]? = some { c with prog := q } := by
  have moved : ∀ {j : Nat} {d : Client} {a : Act} {p : Prog Resp} {ext : List (Tid × Act)},
      s.clients[j]? = some d → d.prog.Next a p →
      s'.clients = s.setClient j p → s'.sh.trace = s.sh.trace ++ ext →
      (∀ x ∈ ext, x.1 = .client j ∨ x.1 = .worker) →
      (s'.clients[i]? = some c ∧ ¬ Takes (.client i) s s') ∨
      ∃ a q, c.prog.Next a q ∧ s'.clients[i]? = some { c with prog := q } := by
    intro j d a p ext hd hn hs ht hx
    rw [hs, setClient_get]
    by_cases e : j = i
    · subst e
      rw [hd] at hc
      cases hc
      exact .inr ⟨a, p, hn, by simp [hd]⟩
    · refine .inl ⟨by rw [if_neg e]; exact hc, ?_⟩
      rw [takes_iff ht]
      rintro ⟨b, hb⟩
      rcases hx _ hb with h | h
      · simp only [Tid.client.injEq] at h; exact e h.symm
      · cases h
  cases h with
  | work hw =>
    cases hw with
    | client j d a p sh hd hn ha => exact moved hd hn rfl (acts_trace ha) (by simp)
    | worker a p sh hn ha =>
      exact .inl ⟨hc, by rw [takes_iff (acts_trace ha)]; simp⟩
    | flush j d t p hd hn hwk => exact moved hd hn rfl rfl (by simp)
    | flushed j d b p q hd hn hn' => exact moved hd hn rfl rfl (by simp)
  | tick k hk => exact .inl ⟨hc, not_takes rfl⟩
  | arrive c' hc' =>
    refine .inl ⟨?_, not_takes rfl⟩
    have := (List.getElem?_eq_some_iff.mp hc).1
    show (s.clients ++ _)[i]? = _
    rw [List.getElem?_append_left this]
    exact hc
  | environment line ns he => exact .inl ⟨hc, not_takes rfl⟩

/-- What a step does to the worker. -/
theorem step_worker {S : Setup σ} {s s' : Sys σ} (h : Step S s s') (hw : s.worker ≠ .ret ()) :
    (s'.worker = s.worker ∧ ¬ Takes .worker s s') ∨ ∃ a q, s.worker.Next a q ∧ s'.worker = q := by
  cases h with
  | work hw' =>
    cases hw' with
    | client j d a p sh hd hn ha =>
      exact .inl ⟨rfl, by rw [takes_iff (acts_trace ha)]; simp⟩
    | worker a p sh hn ha => exact .inr ⟨a, p, hn, rfl⟩
    | flush j d t p hd hn hwk => exact absurd hwk hw
    | flushed j d b p q hd hn hn' => exact .inr ⟨_, q, hn', rfl⟩
  | tick k hk => exact absurd hk hw
  | arrive c' hc' => exact .inl ⟨rfl, not_takes rfl⟩
  | environment line ns he => exact .inl ⟨rfl, not_takes rfl⟩

/-- Goroutine `t` has nothing to do. -/
def Rests (s : Sys σ) : Tid → Prop
  | .client i => ∃ c r, s.clients[i]? = some c ∧ c.prog = .ret r
  | .worker => s.worker = .ret ()

/-- Goroutine `t` is there. -/
def Present (s : Sys σ) : Tid → Prop
  | .client i => ∃ c, s.clients[i]? = some c
  | .worker => True

/-- From `N` on goroutine `t` does nothing, though it has something to do. -/
structure Hangs (f : Nat → Sys σ) (t : Tid) (N : Nat) : Prop where
  present : ∀ m, N ≤ m → Present (f m) t
  not_rests : ∀ m, N ≤ m → ¬ Rests (f m) t
  not_takes : ∀ m, N ≤ m → ¬ Takes t (f m) (f (m + 1))
  poised : ∀ m, N ≤ m → ∀ a, Poised (f m) t a ↔ Poised (f N) t a

theorem Hangs.later {f : Nat → Sys σ} {t : Tid} {N M : Nat} (h : Hangs f t N) (hM : N ≤ M) :
    Hangs f t M where
  present m hm := h.present m (by omega)
  not_rests m hm := h.not_rests m (by omega)
  not_takes m hm := h.not_takes m (by omega)
  poised m hm a := by rw [h.poised m (by omega), h.poised M hM]

theorem settle_client {S : Setup σ} {f : Nat → Sys σ} (hr : Endless S f) {i : Nat} {call : Call}
    {p : Prog Resp} (hp : Acc (fun q p => ∃ a, Prog.Next p a q) p) :
    ∀ n, (f n).clients[i]? = some ⟨call, p⟩ → ∃ N q, n ≤ N ∧
      ∀ m, N ≤ m → (f m).clients[i]? = some ⟨call, q⟩ ∧ ¬ Takes (.client i) (f m) (f (m + 1)) := by
  induction hp with
  | intro p _ ih =>
    intro n hn
    by_cases hm : ∃ m a q, n ≤ m ∧ p.Next a q ∧ (f (m + 1)).clients[i]? = some ⟨call, q⟩
    · obtain ⟨m, a, q, h1, h2, h3⟩ := hm
      obtain ⟨N, r, h4, h5⟩ := ih q ⟨a, h2⟩ (m + 1) h3
      exact ⟨N, r, by omega, h5⟩
    · refine ⟨n, p, Nat.le_refl n, ?_⟩
      have key : ∀ m, n ≤ m → (f m).clients[i]? = some ⟨call, p⟩ →
          (f (m + 1)).clients[i]? = some ⟨call, p⟩ ∧ ¬ Takes (.client i) (f m) (f (m + 1)) := by
        intro m h1 h2
        rcases step_client (hr.step m) h2 with h3 | ⟨a, q, h3, h4⟩
        · exact h3
        · exact absurd ⟨m, a, q, h1, h3, h4⟩ hm
      have all : ∀ k, (f (n + k)).clients[i]? = some ⟨call, p⟩ := by
        intro k
        induction k with
        | zero => exact hn
        | succ k ihk => exact (key (n + k) (by omega) ihk).1
      intro m h1
      have h2 := all (m - n)
      rw [show n + (m - n) = m by omega] at h2
      exact ⟨h2, (key m h1 h2).2⟩

theorem settle_worker {S : Setup σ} {f : Nat → Sys σ} (hr : Endless S f) {p : Prog Unit}
    (hp : Acc (fun q p => ∃ a, Prog.Next p a q) p) :
    ∀ n, (∀ m, n ≤ m → (f m).worker ≠ .ret ()) → (f n).worker = p → ∃ N q, n ≤ N ∧
      ∀ m, N ≤ m → (f m).worker = q ∧ ¬ Takes .worker (f m) (f (m + 1)) := by
  induction hp with
  | intro p _ ih =>
    intro n hw hn
    by_cases hm : ∃ m a q, n ≤ m ∧ p.Next a q ∧ (f (m + 1)).worker = q
    · obtain ⟨m, a, q, h1, h2, h3⟩ := hm
      obtain ⟨N, r, h4, h5⟩ := ih q ⟨a, h2⟩ (m + 1) (fun k hk => hw k (by omega)) h3
      exact ⟨N, r, by omega, h5⟩
    · refine ⟨n, p, Nat.le_refl n, ?_⟩
      have key : ∀ m, n ≤ m → (f m).worker = p →
          (f (m + 1)).worker = p ∧ ¬ Takes .worker (f m) (f (m + 1)) := by
        intro m h1 h2
        rcases step_worker (hr.step m) (hw m h1) with h3 | ⟨a, q, h3, h4⟩
        · exact ⟨h3.1.trans h2, h3.2⟩
        · exact absurd ⟨m, a, q, h1, h2 ▸ h3, h4⟩ hm
      have all : ∀ k, (f (n + k)).worker = p := by
        intro k
        induction k with
        | zero => exact hn
        | succ k ihk => exact (key (n + k) (by omega) ihk).1
      intro m h1
      have h2 := all (m - n)
      rw [show n + (m - n) = m by omega] at h2
      exact ⟨h2, (key m h1 h2).2⟩

/-- Who is not done some day hangs some day. -/
theorem hangs_or_rests {S : Setup σ} {f : Nat → Sys σ} (hr : Endless S f) {t : Tid} {n : Nat}
    (hp : Present (f n) t) : (∃ m, n ≤ m ∧ Rests (f m) t) ∨ ∃ N, n ≤ N ∧ Hangs f t N := by
  by_cases hd : ∃ m, n ≤ m ∧ Rests (f m) t
  · exact .inl hd
  refine .inr ?_
  have nr : ∀ m, n ≤ m → ¬ Rests (f m) t := fun m hm h => hd ⟨m, hm, h⟩
  cases t with
  | client i =>
    obtain ⟨⟨call, p⟩, hc⟩ := hp
    obtain ⟨N, q, h1, h2⟩ := settle_client hr (acc_next p) n hc
    refine ⟨N, h1, fun m hm => ⟨_, (h2 m hm).1⟩, fun m hm => nr m (by omega), fun m hm => (h2 m hm).2, ?_⟩
    intro m hm a
    simp only [Poised, (h2 m hm).1, (h2 N (Nat.le_refl N)).1]
  | worker =>
    obtain ⟨N, q, h1, h2⟩ := settle_worker hr (acc_next _) n nr rfl
    refine ⟨N, h1, fun _ _ => trivial, fun m hm => nr m (by omega), fun m hm => (h2 m hm).2, ?_⟩
    intro m hm a
    simp only [Poised, (h2 m hm).1, (h2 N (Nat.le_refl N)).1]

/-- What a goroutine that is there and has something to do does next. -/
inductive Front (L : Line σ) (s : Sys σ) (g : Tid → G1) (t : Tid) : Prop
  | able : Able L s t → Front L s g t
  | lock : (g t).Free l → WaitsFor s t l → Front L s g t
  | send : (g t).held = [] → t ≠ .worker → Poised s t (.sendFlush v) → Front L s g t
  | recv : (g t).held = [] → (g t).await ≠ none → (∀ b, Poised s t (.recvFlushed b)) → Front L s g t
  | answer : (g t).held = [] → (g t).owes ≠ none → Poised s t (.sendFlushed b) → Front L s g t

theorem able_of_acts {L : Line σ} {s : Sys σ} {t : Tid} {a : Act} {sh' : Shared σ}
    (hp : Poised s t a) (ha : Acts L t a s.sh sh') : Able L s t := by
  obtain ⟨s', h1, h2⟩ := canAct hp ha
  exact ⟨s', h1, [(t, a)], a, by rw [h2]; exact acts_trace ha, List.mem_singleton.mpr rfl⟩

theorem front {S : Setup σ} (hL : S.line.NoPanic) {s : Sys σ} {g : Tid → G1}
    (hi : (scheme1 S).Inv g s) {t : Tid} (hp : Present s t) (hr : ¬ Rests s t) :
    Front S.line s g t := by
  have hG : Glob1 g s.sh := hi.glob
  have key : ∀ {α : Type} {p : Prog α} {Q : G1 → α → Prop}, p.Ok R1 Q (g t) →
      (∀ a, p ≠ .ret a) → (∀ a q, p.Next a q → Poised s t a) → Front S.line s g t := by
    intro α p Q hok hret hpo
    cases head_of_ok hL hG hok with
    | ret => exact absurd rfl (hret _)
    | lock hf => exact .lock hf (.inl (hpo _ _ .lock))
    | rlock hf => exact .lock hf (.inr (hpo _ _ .rlock))
    | sendFlush h h' =>
      refine .send h ?_ (hpo _ _ .sendFlush)
      rintro rfl
      rw [(hG.isWorker .worker).2 rfl] at h'
      cases h'
    | recvFlushed h h' => exact .recv h h' fun b => hpo _ _ (.recvFlushed b)
    | sendFlushed h h' => exact .answer h h' (hpo _ _ .sendFlushed)
    | other ha hn _ _ => exact .able (able_of_acts (hpo _ _ hn) ha)
  cases t with
  | worker =>
    refine key hi.worker (fun a h => hr ?_) fun a q hn => ⟨q, hn⟩
    exact h
  | client i =>
    obtain ⟨c, hc⟩ := hp
    exact key (hi.client i c hc).1 (fun a h => hr ⟨c, a, hc, h⟩) fun a q hn => ⟨c, q, hc, hn⟩

/-- Who holds a lock is there and has something to do. -/
theorem holder_present {S : Setup σ} {s : Sys σ} {g : Tid → G1} (hi : (scheme1 S).Inv g s) {t : Tid}
    (ht : (g t).held ≠ []) : Present s t ∧ ¬ Rests s t := by
  cases t with
  | worker =>
    refine ⟨trivial, fun h => ht ?_⟩
    have := hi.worker
    rw [show s.worker = .ret () from h] at this
    rw [show g .worker = idle1 from this]; rfl
  | client i =>
    match hc : s.clients[i]? with
    | none =>
      have := hi.unborn i (List.getElem?_eq_none_iff.mp hc)
      exact absurd (by rw [this]; rfl) ht
    | some c =>
      refine ⟨⟨c, hc⟩, ?_⟩
      rintro ⟨c', r, h1, h2⟩
      rw [hc] at h1
      cases h1
      have := (hi.client i c hc).1
      rw [h2] at this
      exact ht this.held

/-- Some time a goroutine that hangs cannot go on. -/
theorem hangs_unable {S : Setup σ} {f : Nat → Sys σ} (hf : Fair S f) {t : Tid} {N : Nat}
    (h : Hangs f t N) : ∃ m, N ≤ m ∧ ¬ Able S.line (f m) t := by
  refine Classical.byContradiction fun hn => ?_
  obtain ⟨m, h1, h2⟩ := hf.sched t N fun m hm => Classical.byContradiction fun h' => hn ⟨m, hm, h'⟩
  exact h.not_takes m h1 h2

/-- Nobody hangs waiting for a lock. -/
theorem no_hang_lock {S : Setup σ} (hL : S.line.NoPanic) {f : Nat → Sys σ} (hr : Endless S f)
    (hf : Fair S f) : ∀ (k : Nat) (t : Tid) (l : Lock) (N : Nat), 4 - l.rank < k → Hangs f t N →
    ¬ WaitsFor (f N) t l := by
  intro k
  induction k with
  | zero => intro t l N h; omega
  | succ k ih =>
    intro t l N hk hh hw
    have hall : ∀ m, N ≤ m → WaitsFor (f m) t l := by
      intro m hm
      rcases hw with h | h
      · exact .inl ((hh.poised m hm _).2 h)
      · exact .inr ((hh.poised m hm _).2 h)
    obtain ⟨h, rfl, m, hm, hheld⟩ := hf.locks t l N hall
    have hmem : ∀ j, m ≤ j → ∀ g, (scheme1 S).Inv g (f j) → (h.lock, h.excl) ∈ (g h.tid).held := by
      intro j hj g hi
      have hG : Glob1 g (f j).sh := hi.glob
      exact (hG.held_iff _ _ _).2 (hheld j hj)
    have hpr : ∀ j, m ≤ j → Present (f j) h.tid ∧ ¬ Rests (f j) h.tid := by
      intro j hj
      obtain ⟨g, hi⟩ := run_inv hr j
      exact holder_present hi (List.ne_nil_of_mem (hmem j hj g hi))
    rcases hangs_or_rests hr (hpr m (Nat.le_refl m)).1 with ⟨j, h1, h2⟩ | ⟨M, h1, h2⟩
    · exact (hpr j h1).2 h2
    · obtain ⟨j, h3, h4⟩ := hangs_unable hf h2
      obtain ⟨g, hi⟩ := run_inv hr j
      have hj := hmem j (by omega) g hi
      have hne := List.ne_nil_of_mem hj
      have h5 := h2.later h3
      cases front hL hi (h5.present j (Nat.le_refl j)) (h5.not_rests j (Nat.le_refl j)) with
      | able h => exact h4 h
      | @lock l' hfr hw' =>
        have hlt := hfr _ hj
        have := rank_le l'
        simp only at hlt
        exact ih h.tid l' j (by omega) h5 hw'
      | send h' => exact hne h'
      | recv h' => exact hne h'
      | answer h' => exact hne h'

/-- A request that awaits the worker's answer can take it. -/
theorem awaits_recv {S : Setup σ} (hL : S.line.NoPanic) {s : Sys σ} {g : Tid → G1}
    (hi : (scheme1 S).Inv g s) {i : Nat} (ha : (g (.client i)).await ≠ none) :
    ∃ c k, s.clients[i]? = some c ∧ c.prog = .recvFlushed k := by
  have hG : Glob1 g s.sh := hi.glob
  match hc : s.clients[i]? with
  | none =>
    have hun : g (.client i) = {} := hi.unborn i (List.getElem?_eq_none_iff.mp hc)
    rw [hun] at ha; exact absurd rfl ha
  | some c =>
    have hok := (hi.client i c hc).1
    have hh := head_of_ok hL hG hok
    refine ⟨c, ?_⟩
    generalize c.prog = p at hh hok
    cases hh with
    | ret => exact absurd hok.calm.await ha
    | lock hf => exact absurd (hok trivial).1.1 ha
    | rlock hf => exact absurd (hok trivial).1.1 ha
    | sendFlush _ _ => exact absurd (hok trivial).1.1 ha
    | sendFlushed _ _ => exact absurd (hok trivial).1.1 ha
    | other _ _ h _ => exact absurd h ha
    | recvFlushed _ _ => exact ⟨_, rfl, rfl⟩

/-- The worker does not hang. -/
theorem no_hang_worker {S : Setup σ} (hL : S.line.NoPanic) {f : Nat → Sys σ} (hr : Endless S f)
    (hf : Fair S f) (N : Nat) : ¬ Hangs f .worker N := by
  intro hh
  obtain ⟨m, h1, h2⟩ := hangs_unable hf hh
  obtain ⟨g, hi⟩ := run_inv hr m
  have hG : Glob1 g (f m).sh := hi.glob
  have h3 := hh.later h1
  cases front hL hi (h3.present m (Nat.le_refl m)) (h3.not_rests m (Nat.le_refl m)) with
  | able h => exact h2 h
  | lock _ hw => exact no_hang_lock hL hr hf _ _ _ m (Nat.lt_succ_self _) h3 hw
  | send _ h => exact h rfl
  | recv _ h => exact h hG.workerAwait
  | answer _ ho hp =>
    obtain ⟨q, hq⟩ := hp
    match hov : (g .worker).owes with
    | none => exact ho hov
    | some v =>
      obtain ⟨i, ha⟩ := hG.owes_await v hov
      obtain ⟨c, k, hc, hk⟩ := awaits_recv hL hi (i := i) (by rw [ha]; simp)
      refine h2 ⟨_, .flushed i c _ _ q hc (by rw [hk]; exact .recvFlushed _) hq, ?_⟩
      exact ⟨_, _, rfl, List.mem_cons_self ..⟩

/-- The worker comes back to its `select`. -/
theorem worker_returns {S : Setup σ} (hL : S.line.NoPanic) {f : Nat → Sys σ} (hr : Endless S f)
    (hf : Fair S f) (n : Nat) : ∃ m, n ≤ m ∧ (f m).worker = .ret () := by
  rcases hangs_or_rests hr (t := .worker) (n := n) trivial with h | ⟨N, _, h⟩
  · exact h
  · exact absurd h (no_hang_worker hL hr hf N)

/-- No request hangs. -/
theorem no_hang_client {S : Setup σ} (hL : S.line.NoPanic) {f : Nat → Sys σ} (hr : Endless S f)
    (hf : Fair S f) (i N : Nat) : ¬ Hangs f (.client i) N := by
  intro hh
  obtain ⟨m, h1, h2⟩ := hangs_unable hf hh
  obtain ⟨g, hi⟩ := run_inv hr m
  have hG : Glob1 g (f m).sh := hi.glob
  have h3 := hh.later h1
  cases front hL hi (h3.present m (Nat.le_refl m)) (h3.not_rests m (Nat.le_refl m)) with
  | able h => exact h2 h
  | lock _ hw => exact no_hang_lock hL hr hf _ _ _ m (Nat.lt_succ_self _) h3 hw
  | @send v _ _ hp =>
    obtain ⟨j, h4, h5⟩ := hf.select i m fun k hk => ⟨v, (h3.poised k hk _).2 hp⟩
    obtain ⟨k, h6, h7⟩ := worker_returns hL hr hf j
    exact h5 k h6 h7
  | recv _ ha hp =>
    obtain ⟨k, h4, h5⟩ := worker_returns hL hr hf m
    obtain ⟨g', hi'⟩ := run_inv hr k
    have hG' : Glob1 g' (f k).sh := hi'.glob
    have hw := hi'.worker
    rw [h5] at hw
    have hidle : g' .worker = idle1 := hw
    have na := not_awaiting hG' (by rw [hidle]; rfl) i
    have hfr := (h3.poised k h4 (.recvFlushed true)).2 (hp true)
    obtain ⟨c, p, hc, hn⟩ := hfr
    have hok := (hi'.client i c hc).1
    generalize c.prog = p' at hok hn
    cases hn with
    | recvFlushed b =>
      have := head_of_ok hL hG' hok
      cases this with
      | recvFlushed _ h => exact h na
      | other ha hn _ _ => cases hn; cases ha
  | answer _ ho _ => exact ho (hG.clientOwes i)

/-- Every goroutine has nothing to do again and again: then the execution is fair. -/
theorem fair_of_rests {S : Setup σ} {f : Nat → Sys σ}
    (h : ∀ t n, ∃ m, n ≤ m ∧ ∀ a, ¬ Poised (f m) t a) : Fair S f := by
  have unable : ∀ {s : Sys σ} {t : Tid}, (∀ a, ¬ Poised s t a) → ¬ Able S.line s t := by
    rintro s t hn ⟨s', hw, ht⟩
    cases hw with
    | client i c a p sh hc hx ha =>
      rw [takes_iff (acts_trace ha)] at ht
      obtain ⟨b, hb⟩ := ht
      cases List.mem_singleton.mp hb
      exact hn _ ⟨c, p, hc, hx⟩
    | worker a p sh hx ha =>
      rw [takes_iff (acts_trace ha)] at ht
      obtain ⟨b, hb⟩ := ht
      cases List.mem_singleton.mp hb
      exact hn _ ⟨p, hx⟩
    | flush i c v p hc hx _ =>
      rw [takes_iff (ext := [(.client i, .sendFlush v)]) rfl] at ht
      obtain ⟨b, hb⟩ := ht
      cases List.mem_singleton.mp hb
      exact hn _ ⟨c, p, hc, hx⟩
    | flushed i c b p q hc hx hx' =>
      rw [takes_iff (ext := [(.worker, .sendFlushed b), (.client i, .recvFlushed b)]) rfl] at ht
      obtain ⟨b', hb⟩ := ht
      simp only [List.mem_cons, List.not_mem_nil, or_false, Prod.mk.injEq] at hb
      rcases hb with ⟨rfl, -⟩ | ⟨rfl, -⟩
      · exact hn _ ⟨q, hx'⟩
      · exact hn _ ⟨c, p, hc, hx⟩
  refine ⟨fun t n ha => ?_, fun t l n ha => ?_, fun i n ha => ?_⟩
  · obtain ⟨m, h1, h2⟩ := h t n
    exact absurd (ha m h1) (unable h2)
  · obtain ⟨m, h1, h2⟩ := h t n
    rcases ha m h1 with h3 | h3
    · exact absurd h3 (h2 _)
    · exact absurd h3 (h2 _)
  · obtain ⟨m, h1, h2⟩ := h (.client i) n
    obtain ⟨v, h3⟩ := ha m h1
    exact absurd h3 (h2 _)

theorem fair_of_quiet {S : Setup σ} {f : Nat → Sys σ} (h : ∀ n, ∃ m, n ≤ m ∧ AllDone (f m)) :
    Fair S f := by
  refine fair_of_rests fun t n => ?_
  obtain ⟨m, h1, hd⟩ := h n
  refine ⟨m, h1, fun a hp => ?_⟩
  cases t with
  | worker =>
    obtain ⟨p, hn⟩ := hp
    rw [hd.2] at hn
    cases hn
  | client i =>
    obtain ⟨c, p, hc, hn⟩ := hp
    obtain ⟨r, hr⟩ := hd.1 c (List.mem_of_getElem? hc)
    rw [hr] at hn
    cases hn

end Comfo
