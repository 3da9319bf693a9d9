import Verif.Lemmas.Live
import Verif.Props.Sync
/-!
# Property C101: every request is answered, however many others come

The theorems are about executions without end (`Verif/Spec/Live.lean`), in which requests and ticks
may arrive for ever, at any rate.
-/
namespace Comfo.Props
open Spec

/-- **C101** (1) Every request that has arrived is answered some time. -/
theorem C101_answered {S : Setup σ} (hL : S.line.NoPanic) {f : Nat → Sys σ} (hr : Endless S f)
    (hf : Fair S f) {n i : Nat} {c : Client} (hc : (f n).clients[i]? = some c) :
    ∃ m r, n ≤ m ∧ Answered (f m) i c.call r := by
  obtain ⟨call, p⟩ := c
  have key : ∀ k, ∃ q, (f (n + k)).clients[i]? = some ⟨call, q⟩ := by
    intro k
    induction k with
    | zero => exact ⟨p, hc⟩
    | succ k ih =>
      obtain ⟨q, hq⟩ := ih
      rcases step_client (hr.step (n + k)) hq with h | ⟨a, q', -, h⟩
      · exact ⟨q, h.1⟩
      · exact ⟨q', h⟩
  rcases hangs_or_rests hr (t := .client i) (n := n) ⟨_, hc⟩ with ⟨m, h1, c', r, h2, h3⟩ | ⟨N, -, h⟩
  · obtain ⟨q, hq⟩ := key (m - n)
    rw [show n + (m - n) = m by omega, h2] at hq
    cases hq
    simp only at h3
    subst h3
    exact ⟨m, r, h1, h2⟩
  · exact absurd h (no_hang_client hL hr hf i N)

/-- **C101** (2) The worker is ready for the next tick or flush again and again: refreshes do not
cease. -/
theorem C101_worker {S : Setup σ} (hL : S.line.NoPanic) {f : Nat → Sys σ} (hr : Endless S f)
    (hf : Fair S f) (n : Nat) : ∃ m, n ≤ m ∧ (f m).worker = .ret () :=
  worker_returns hL hr hf n

/-- **C101** (3) Nobody keeps a lock for ever. -/
theorem C101_released {S : Setup σ} (hL : S.line.NoPanic) {f : Nat → Sys σ} (hr : Endless S f)
    (hf : Fair S f) (n : Nat) (h : Held) : ∃ m, n ≤ m ∧ h ∉ (f m).sh.held := by
  refine Classical.byContradiction fun hn => ?_
  have all : ∀ m, n ≤ m → h ∈ (f m).sh.held :=
    fun m hm => Classical.byContradiction fun h' => hn ⟨m, hm, h'⟩
  have pr : ∀ m, n ≤ m → Present (f m) h.tid ∧ ¬ Rests (f m) h.tid := by
    intro m hm
    obtain ⟨g, hi⟩ := run_inv hr m
    have hG : Glob1 g (f m).sh := hi.glob
    exact holder_present hi (List.ne_nil_of_mem ((hG.held_iff _ _ _).2 (all m hm)))
  rcases hangs_or_rests hr (pr n (Nat.le_refl n)).1 with ⟨m, h1, h2⟩ | ⟨N, -, h2⟩
  · exact (pr m h1).2 h2
  · match ht : h.tid with
    | .worker => rw [ht] at h2; exact no_hang_worker hL hr hf N h2
    | .client i => rw [ht] at h2; exact no_hang_client hL hr hf i N h2

/-- **C101** (4) No less than fairness would do: an execution in which all requests are answered
and the worker comes back again and again is fair. -/
theorem C101_exact {S : Setup σ} (hL : S.line.NoPanic) {f : Nat → Sys σ} (hr : Endless S f) :
    Fair S f ↔
      (∀ n i c, (f n).clients[i]? = some c → ∃ m r, n ≤ m ∧ Answered (f m) i c.call r) ∧
      ∀ n, ∃ m, n ≤ m ∧ (f m).worker = .ret () := by
  refine ⟨fun hf => ⟨fun n i c hc => C101_answered hL hr hf hc, C101_worker hL hr hf⟩, ?_⟩
  rintro ⟨h1, h2⟩
  refine fair_of_rests fun t n => ?_
  cases t with
  | worker =>
    obtain ⟨m, h3, h4⟩ := h2 n
    refine ⟨m, h3, ?_⟩
    rintro a ⟨p, hn⟩
    rw [h4] at hn
    cases hn
  | client i =>
    match hc : (f n).clients[i]? with
    | none =>
      refine ⟨n, Nat.le_refl n, ?_⟩
      rintro a ⟨c, p, h, -⟩
      rw [hc] at h
      cases h
    | some c =>
      obtain ⟨m, r, h3, h4⟩ := h1 n i c hc
      refine ⟨m, h3, ?_⟩
      rintro a ⟨c', p, h, hn⟩
      rw [show (f m).clients[i]? = _ from h4] at h
      cases h
      cases hn

/-! ## There are such executions -/

/-- One request after the other. -/
noncomputable def onAndOn (S : Setup σ) (c : Call) (s : Sys σ) : Sys σ :=
  open Classical in
  if AllDone s then { s with clients := s.clients ++ [{ call := c, prog := c.prog S.cv }] }
  else if h : ∃ s', Work S.line s s' then h.choose else s

noncomputable def forever (S : Setup σ) (c : Call) (s : Sys σ) : Nat → Sys σ
  | 0 => s
  | n + 1 => onAndOn S c (forever S c s n)

theorem forever_step {S : Setup σ} (hL : S.line.NoPanic) {c : Call} (hc : S.calls c) {w : World σ}
    {s : Sys σ} (h : Reachable S (Sys.initial w) s) :
    Step S s (onAndOn S c s) ∧ (¬ AllDone s → Work S.line s (onAndOn S c s)) := by
  unfold onAndOn
  by_cases hd : AllDone s
  · rw [if_pos hd]
    exact ⟨.arrive c hc, fun h => absurd hd h⟩
  · have hw : ∃ s', Work S.line s s' := by
      obtain ⟨s', h1, -⟩ := C30_no_deadlock hL h hd
      exact ⟨s', h1⟩
    rw [if_neg hd, dif_pos hw]
    exact ⟨.work hw.choose_spec, fun _ => hw.choose_spec⟩

theorem step_length {S : Setup σ} {s s' : Sys σ} (h : Step S s s') :
    s.clients.length ≤ s'.clients.length := by
  cases h with
  | work hw => cases hw <;> simp [Sys.setClient]
  | tick k hk => exact Nat.le_refl _
  | arrive c hc => simp
  | environment line ns he => exact Nat.le_refl _

/-- After every history of the server, and for every request: an execution goes on from there that
is fair and in which this request arrives again and again. -/
theorem fair_run_exists {S : Setup σ} (hL : S.line.NoPanic) {c : Call} (hc : S.calls c)
    {w : World σ} {s : Sys σ} (h : Reachable S (Sys.initial w) s) :
    ∃ f, f 0 = s ∧ Endless S f ∧ Fair S f ∧ ∀ k, ∃ n, k ≤ (f n).clients.length := by
  have hreach : ∀ n, Reachable S (Sys.initial w) (forever S c s n) := by
    intro n
    induction n with
    | zero => exact h
    | succ n ih => exact .step ih (forever_step hL hc ih).1
  have quiet : ∀ n, ∃ m, n ≤ m ∧ AllDone (forever S c s m) := by
    intro n
    have : ∀ s', ∀ n, forever S c s n = s' → ∃ m, n ≤ m ∧ AllDone (forever S c s m) := by
      intro s'
      induction s' using (work_wf S.line).induction with
      | _ s' ih =>
        rintro n rfl
        by_cases hd : AllDone (forever S c s n)
        · exact ⟨n, Nat.le_refl n, hd⟩
        · obtain ⟨m, h1, h2⟩ := ih _ ((forever_step hL hc (hreach n)).2 hd) (n + 1) rfl
          exact ⟨m, by omega, h2⟩
    exact this _ n rfl
  refine ⟨forever S c s, rfl, ⟨⟨w, h⟩, fun n => (forever_step hL hc (hreach n)).1⟩, fair_of_quiet quiet, ?_⟩
  have mono : ∀ n k, (forever S c s n).clients.length ≤ (forever S c s (n + k)).clients.length := by
    intro n k
    induction k with
    | zero => exact Nat.le_refl _
    | succ k ih =>
      exact Nat.le_trans ih (step_length (forever_step hL hc (hreach (n + k))).1)
  intro k
  induction k with
  | zero => exact ⟨0, Nat.zero_le _⟩
  | succ k ih =>
    obtain ⟨n, hn⟩ := ih
    obtain ⟨m, h1, h2⟩ := quiet n
    refine ⟨m + 1, ?_⟩
    have := mono n (m - n)
    rw [show n + (m - n) = m by omega] at this
    show _ ≤ (onAndOn S c (forever S c s m)).clients.length
    unfold onAndOn
    rw [if_pos h2]
    simp only [List.length_append, List.length_cons, List.length_nil]
    omega

/-- The sample unit, with two requests under way, one of which waits for the other: from there on a
flush arrives again and again, and all of them are answered. -/
example : ∃ f, Endless demo f ∧ Fair demo f ∧ 2 ≤ (f 0).clients.length ∧
    ¬ (∃ r, Answered (f 0) 0 (.libGet .fans) r) ∧
    ∀ k, ∃ n, k ≤ (f n).clients.length := by
  obtain ⟨s, h1, h2⟩ := exec_witness (S := demo) demoStart
    ([.arrive (.libGet .fans), .arrive (.libGet .temps)] ++ steps 2 (.client 1)) (fun _ _ => trivial)
    (fun s => decide (s.clients.length = 2) && (s.clients[0]?.all fun c => !Prog.isRet c.prog)) (by decide)
  simp only [Bool.and_eq_true, decide_eq_true_eq] at h2
  obtain ⟨f, h3, h4, h5, h6⟩ := fair_run_exists demo_noPanic (c := .flush 10) trivial h1
  refine ⟨f, h4, h5, by rw [h3, h2.1]; exact Nat.le_refl 2, ?_, h6⟩
  rintro ⟨r, hr⟩
  rw [h3] at hr
  have := h2.2
  rw [show s.clients[0]? = _ from hr] at this
  simp [Prog.isRet] at this

end Comfo.Props
