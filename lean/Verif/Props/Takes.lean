import Verif.Lemmas.Takes
/-!
# C107: how long a request takes that changes a setting

Requests that change the fans wait for each other, and so do those that change the comfort temperature. Each
of them queries the unit several times, and waits for the cache worker and the line. The time is bounded
nevertheless.
-/
namespace Comfo.Props
open Spec Pace

variable {S : Setup σ} {w : World σ} {f : Nat → Sys σ}

theorem rivals_iff {c d : Call} {l : Lock} (h : outer c = some l) : rivals c d = true ↔ outer d = some l := by
  cases c <;> cases h <;> cases d <;> simp [rivals, outer]

theorem rivals_self {c d : Call} (h : rivals c d = true) : ∃ l, (l = .fan ∨ l = .temp) ∧ outer c = some l := by
  cases c <;> first | exact ⟨_, .inl rfl, rfl⟩ | exact ⟨_, .inr rfl, rfl⟩ | (cases d <;> cases h)

theorem held_poised (hL : S.line.NoPanic) {s : Sys σ} (h : Reachable S (Sys.initial w) s) {l : Lock} {b : Bool}
    {t : Tid} (hh : ⟨l, b, t⟩ ∈ s.sh.held) : ∃ y, Poised s t y := by
  obtain ⟨g, hi⟩ := inv1 h
  have hG : Glob1 g s.sh := hi.glob
  rcases holder_head hL hi (t := t) (List.ne_nil_of_mem ((hG.held_iff _ _ _).2 hh)) with
    ⟨a, -, h, -⟩ | ⟨l', -, h | h⟩
  · exact ⟨_, h⟩
  · exact ⟨_, h⟩
  · exact ⟨_, h⟩

theorem poised_rival {s : Sys σ} {j : Nat} {x : Client} {y : Act} {c : Call} (hx : s.clients[j]? = some x)
    (hy : Poised s (.client j) y) (hr : rivals c x.call = true) : isRival c x = true := by
  obtain ⟨x', q, h1, h2⟩ := hy
  rw [hx] at h1; cases h1
  unfold isRival
  split
  · rename_i v e; rw [e] at h2; cases h2
  · exact hr

/-- Waiting for the outer lock: for those who are there already. -/
theorem wait_outer (hL : S.line.NoPanic) (hS : ∀ c, S.calls c → OnServer c) (hf : Execution S w f) {δ : Nat}
    (hp : Prompt S.line f δ) (hq : Queued f) {i : Nat} {x : Client} {l : Lock} {m n r B : Nat}
    (hl : l = .fan ∨ l = .temp) (hmn : m ≤ n) (hx : (f m).clients[i]? = some x) (ho : outer x.call = some l)
    (hr : ∀ k id, m ≤ k → k ≤ n → readers (f k) id ≤ r) (hB : workload δ r x.call (f m) ≤ B)
    (ht : Poised (f m) (.client i) (.lock l)) (hid : Still f (.client i) m n) :
    busy δ r x.call ≤ B ∧
    (f (n + 1)).sh.world.clock ≤ (f m).sh.world.clock + (B - busy δ r x.call + δ : Nat) := by
  classical
  have hl3 : l = .fan ∨ l = .temp ∨ l = .am := hl.imp id .inl
  let there : Tid → Prop := fun u => ∃ b, Poised (f m) u (taking l b) ∨ ⟨l, b, u⟩ ∈ (f m).sh.held
  let ws := (tids (f m)).filter fun u => decide (u ≠ .client i ∧ there u)
  let due : Nat → Nat := fun j => match (f n).clients[j]? with
    | some y => busy δ r y.call
    | none => 0
  have dueAt : ∀ {k j : Nat} {y : Client}, k ≤ n → (f k).clients[j]? = some y → due j = busy δ r y.call := by
    intro k j y hk hy
    obtain ⟨z, h1, h2⟩ := client_stays hf hy n hk
    simp only [due, h1, h2]
  let cost : Tid → Nat
    | .worker => 0
    | .client j => due j - δ
  let costs : Tid → Nat
    | .worker => 0
    | .client j => due j
  have hnd : ws.Nodup := (tids_nodup _).filter _
  have hat : ∀ u ∈ ws, u ≠ .client i ∧ there u := by
    intro u hu
    simpa using (List.mem_filter.1 hu).2
  have client : ∀ u, there u → ∃ j y, u = .client j ∧ (f m).clients[j]? = some y ∧ outer y.call = some l ∧
      isRival x.call y = true := by
    rintro u ⟨b, h⟩
    cases u with
    | worker =>
      rcases h with h | h
      · exact absurd h (worker_poised (run_reach hf m) hl3)
      · exact absurd h (worker_held (run_reach hf m) hl3)
    | client j =>
      obtain ⟨y, e1, e2⟩ := at_outer hS (run_reach hf m) hl h
      obtain ⟨a, ha⟩ : ∃ a, Poised (f m) (.client j) a := by
        rcases h with h | h
        · exact ⟨_, h⟩
        · exact held_poised hL (run_reach hf m) h
      exact ⟨j, y, rfl, e1, e2, poised_rival e1 ha ((rivals_iff ho).2 e2)⟩
  -- what they have to do
  have hself : there (.client i) := ⟨true, .inl ht⟩
  have hsum : ((Tid.client i :: ws).map costs).sum ≤ workload δ r x.call (f m) := by
    have h1 := sum_le costs (ts := .client i :: ws)
      (us := ((List.range (f m).clients.length).filter fun j => ((f m).clients[j]?).any (isRival x.call)).map .client)
      (List.nodup_cons.2 ⟨fun h => (hat _ h).1 rfl, hnd⟩) (by
        intro t h
        have hth : there t := by
          rcases List.mem_cons.1 h with rfl | h
          · exact hself
          · exact (hat t h).2
        obtain ⟨j, y, rfl, e1, -, e2⟩ := client t hth
        refine List.mem_map.2 ⟨j, List.mem_filter.2 ⟨List.mem_range.2 (List.getElem?_eq_some_iff.1 e1).1, ?_⟩, rfl⟩
        rw [e1]; exact e2)
    rw [List.map_map] at h1
    unfold workload
    rw [← sum_idx (isRival x.call) (fun d => busy δ r d.call) due _ (fun j y h => dueAt hmn h)]
    exact h1
  have hi : costs (.client i) = busy δ r x.call := dueAt hmn hx
  rw [List.map_cons, List.sum_cons, hi] at hsum
  have hle : (ws.map fun u => cost u + δ).sum ≤ (ws.map costs).sum := by
    have : ∀ us : List Tid, (∀ u ∈ us, there u) → (us.map fun u => cost u + δ).sum ≤ (us.map costs).sum := by
      intro us
      induction us with
      | nil => intro _; simp
      | cons u us ih =>
        intro h
        have := ih fun v hv => h v (List.mem_cons_of_mem _ hv)
        obtain ⟨j, y, rfl, e1, e2, -⟩ := client u (h u List.mem_cons_self)
        have hb : due j = busy δ r y.call := dueAt hmn e1
        have := total_le (δ := δ) (r := r) e2
        simp only [List.map_cons, List.sum_cons]
        show due j - δ + δ + _ ≤ due j + _
        omega
    exact this ws fun u hu => (hat u hu).2
  refine ⟨by omega, ?_⟩
  have hwait := wait_lock hf hp hq ht hid cost
    (fun u b c d c1 c2 c3 hh => by
      have hc := hh c (Nat.le_refl _) c2
      cases u with
      | worker => exact absurd hc (worker_held (run_reach hf c) hl3)
      | client j =>
        obtain ⟨y, e1, e2⟩ := at_outer hS (run_reach hf c) hl (.inr hc)
        have h3 := hold_outer hL hS hf hp hq c2 e1 e2 (fun k id k1 k2 => hr k id (Nat.le_trans c1 k1)
          (Nat.le_trans k2 c3)) hh
        have h4 := total_le (δ := δ) (r := r) e2
        have hd : due j = busy δ r y.call := dueAt (Nat.le_trans c2 c3) e1
        show _ ≤ _ + ((due j - δ : Nat) : Int)
        rw [hd]
        omega) ws m (Nat.le_refl _) hmn
    (by
      rintro u hu ⟨b, h⟩
      have hal : there u := ⟨b, h.symm.imp (fun h => h.1) _root_.id⟩
      refine List.mem_filter.2 ⟨tids_mem (run_reach hf m) ?_, by simpa using ⟨hu, hal⟩⟩
      exact h.symm.imp (fun h => ⟨_, h.1⟩) (fun h => ⟨_, _, h⟩))
    (fun k b h1 h2 => lock_free (run_reach hf k) (poised_idle hf h1 (idle_part hf hid h1 h2).1 ht))
  omega

theorem ret_stays (hf : Execution S w f) {i k n : Nat} {c : Call} {v : Resp}
    (h : Answered (f k) i c v) (hk : k ≤ n) : Answered (f n) i c v := by
  unfold Answered at h ⊢
  induction hk with
  | refl => exact h
  | @step n _ ih =>
    have set : ∀ {j : Nat} {d : Client} {a : Act} {p q : Prog Resp}, (f n).clients[j]? = some d → d.prog.Next a q →
        ((f n).setClient j p)[i]? = some { call := c, prog := .ret v } := by
      intro j d a p q hd hn
      rw [setClient_get, if_neg]
      · exact ih
      · rintro rfl
        rw [ih] at hd; cases hd; cases hn
    rcases hf.next n with h | h
    · generalize f (n + 1) = s' at h
      cases h with
      | work hw =>
        cases hw with
        | client j d a p sh hd hn => exact set hd hn
        | worker => exact ih
        | flush j d v p hd hn => exact set hd hn
        | flushed j d b p q hd hn => exact set hd hn
      | tick => exact ih
      | arrive d =>
        obtain ⟨hlt, -⟩ := List.getElem?_eq_some_iff.1 ih
        show ((f n).clients ++ _)[i]? = _
        rw [List.getElem?_append_left hlt]; exact ih
      | environment => exact ih
    · rw [h]; exact ih

/-- **C107** (1) A request that changes a setting and is not answered yet at step `n` arrived at most as long
ago as it takes to do what there is to do for it and for those requests it may have to wait for. -/
theorem C107_set (hL : S.line.NoPanic) (hS : ∀ c, S.calls c → OnServer c) (hf : Execution S w f) {δ : Nat}
    (hp : Prompt S.line f δ) (hq : Queued f) {i : Nat} {c : Call} {m n r B : Nat} (hmn : m ≤ n)
    (hc : rivals c c = true) (ha : (f m).clients[i]? = some { call := c, prog := c.prog S.cv })
    (hu : ∀ v, ¬ Answered (f n) i c v) (hr : ∀ k id, m ≤ k → k ≤ n → readers (f k) id ≤ r)
    (hB : ∀ k, m ≤ k → k ≤ n → workload δ r c (f k) ≤ B) :
    (f (n + 1)).sh.world.clock ≤ (f m).sh.world.clock + (B : Nat) := by
  obtain ⟨l, hl, ho⟩ := rivals_self hc
  have go : ∀ k, m ≤ k → k ≤ n → ∃ y, Poised (f k) (.client i) y := by
    intro k h1 h2
    obtain ⟨x, hx, hxc⟩ := client_stays hf ha k h1
    obtain ⟨g, hi⟩ := inv1 (run_reach hf k)
    have hok := (hi.client i x hx).1
    have hno : ∀ v, x.prog ≠ .ret v := by
      intro v e
      refine hu v (ret_stays hf ?_ h2)
      unfold Answered
      rw [hx, ← e, ← show x.call = c from hxc]
    suffices ∃ y q, x.prog.Next y q by
      obtain ⟨y, q, h⟩ := this
      exact ⟨y, x, q, hx, h⟩
    revert hno hok
    generalize x.prog = p
    intro hok hno
    have hh := head_of_ok hL hi.glob hok
    cases hh with
    | ret => exact absurd rfl (hno _)
    | lock => exact ⟨_, _, .lock⟩
    | rlock => exact ⟨_, _, .rlock⟩
    | sendFlush => exact ⟨_, _, .sendFlush⟩
    | recvFlushed => exact ⟨_, _, .recvFlushed true⟩
    | sendFlushed => exact ⟨_, _, .sendFlushed⟩
    | other _ h _ _ => exact ⟨_, _, h⟩
  have hown : busy δ r c ≤ B := by
    obtain ⟨y, hy⟩ := go m (Nat.le_refl _) hmn
    refine Nat.le_trans ?_ (hB m (Nat.le_refl _) hmn)
    unfold workload
    refine Pace.single_le (g := fun d : Client => busy δ r d.call) (a := { call := c, prog := c.prog S.cv }) ?_
    exact List.mem_filter.2 ⟨List.mem_of_getElem? ha, poised_rival ha hy hc⟩
  obtain ⟨as, y, h1, h2, h3⟩ := chain hf hmn _ (price_kind (2000000000 + 11 * δ) (fun _ => 2000000000 + 18 * δ + 3 * r * δ)
      (B - busy δ r c + δ) δ) go
    (fun k d y k1 k2 k3 hid hy => set_step hL hS hf hp hq ha ho hr
      (fun c' d' c1 c2 c3 hlk hst => by
        obtain ⟨x, hx, hxc⟩ := client_stays hf ha c' c1
        have hxc : x.call = c := hxc
        have := (wait_outer hL hS hf hp hq hl c2 hx (hxc ▸ ho)
          (fun k id k1 k2 => hr k id (Nat.le_trans c1 k1) (Nat.le_trans k2 c3))
          (hxc ▸ hB c' c1 (Nat.le_trans c2 c3)) hlk hst).2
        rw [hxc] at this
        exact this) k1 k2 k3 hid hy)
  obtain ⟨z, hz, hzc⟩ := client_stays hf ha n hmn
  have hzc : z.call = c := hzc
  have := next_total (V := 2000000000 + 11 * δ) (W := 2000000000 + 18 * δ + 3 * r * δ)
    (X := B - busy δ r c + δ) (δ := δ) (run_reach hf n) hz (hzc ▸ ho) h2
  rw [h1, List.append_assoc, List.map_append, List.sum_append, hzc, total_add ho] at this
  have := total_le (δ := δ) (r := r) ho
  omega

/-- **C107** (2) If no other such request is under way in the meantime, it takes at most 8 s
(`SetComfortTemp`), 11 s (`SetFanProfile`) or 65 s (`SetFanSpeed`), plus small change. -/
theorem C107_alone (hL : S.line.NoPanic) (hS : ∀ c, S.calls c → OnServer c) (hf : Execution S w f) {δ : Nat}
    (hp : Prompt S.line f δ) (hq : Queued f) {i : Nat} {c : Call} {m n r : Nat} (hmn : m ≤ n)
    (hc : rivals c c = true) (ha : (f m).clients[i]? = some { call := c, prog := c.prog S.cv })
    (hu : ∀ v, ¬ Answered (f n) i c v) (hr : ∀ k id, m ≤ k → k ≤ n → readers (f k) id ≤ r)
    (ho : ∀ k j d, m ≤ k → k ≤ n → (f k).clients[j]? = some d → isRival c d = true → j = i) :
    (f (n + 1)).sh.world.clock ≤ (f m).sh.world.clock + (busy δ r c : Nat) := by
  refine C107_set hL hS hf hp hq hmn hc ha hu hr fun k k1 k2 => ?_
  obtain ⟨x, hx, hxc⟩ := client_stays hf ha k k1
  unfold workload
  have := Pace.only_le (p := isRival c) (g := fun d : Client => busy δ r d.call) (l := (f k).clients) (i := i)
    hx fun j d h1 h2 => ho k j d k1 k2 h1 h2
  rw [hxc] at this
  exact this

/-! ## An example -/

/-- Two requests change the comfort temperature. The second has to wait, and the first asks the unit. -/
def duelBefore : List Cmd :=
  [.arrive (.setComfort 22), .arrive (.setComfort 23)] ++ steps 3 (.client 0) ++ steps 2 (.client 1) ++
    steps 2 (.client 0)

/-- The unit answers, and the second request has its turn. -/
def duelAfter : List Cmd := steps 15 (.client 0) ++ steps 18 (.client 1)

def duelStart : World Vent := { ventStart 3 with clock := 1000000000000 }

/-- While the first request waits for the answer of the unit, 0.9 s pass. -/
def duelJump : Sys Vent :=
  let s := playing ventServed duelBefore (Sys.initial duelStart) 9
  { s with sh := { s.sh with world := { s.sh.world with clock := s.sh.world.clock + ((900000000 : Nat) : Int) } } }

def duel (n : Nat) : Sys Vent :=
  if n ≤ 9 then playing ventServed duelBefore (Sys.initial duelStart) n
  else playing ventServed duelAfter duelJump (n - 10)

theorem duel_run : Execution ventServed duelStart duel where
  start := rfl
  next n := by
    unfold duel
    rcases Nat.lt_trichotomy n 9 with h | rfl | h
    · rw [if_pos (by omega), if_pos (by omega)]
      exact playing_step (by
        intro c hc
        simp [duelBefore, steps] at hc
        rcases hc with rfl | rfl <;> trivial) (by decide +kernel) n
    · left
      rw [if_pos (by omega), if_neg (by omega)]
      exact .environment _ 900000000 ⟨_, _, rfl⟩
    · rw [if_neg (by omega), if_neg (by omega), show n + 1 - 10 = (n - 10) + 1 by omega]
      exact playing_step (by
        intro c hc
        simp [duelAfter, steps] at hc) (by decide +kernel) _

/-- Nothing happens after step 43. -/
theorem duel_end {n : Nat} (h : 43 ≤ n) : duel n = duel 43 := by
  unfold duel playing
  rw [if_neg (by omega), if_neg (by omega), List.take_of_length_le (i := n - 10),
    List.take_of_length_le (i := 43 - 10)]
  · decide
  · show 33 ≤ n - 10
    omega

theorem duel_all {P : Sys Vent → Prop} (h : ∀ n : Fin 44, P (duel n)) (n : Nat) : P (duel n) := by
  rcases Nat.lt_or_ge n 44 with hn | hn
  · exact h ⟨n, hn⟩
  · rw [duel_end (by omega)]; exact h 43

/-- Only the first request can go on if the others wait for a lock that is held and the worker for a
ticker. -/
theorem only_first_moves {L : Line σ} {s s' : Sys σ} {t : Tid} {l : Lock} {c₀ : Client} {cs : List Client}
    (h : Moves L t s s') (h0 : s.clients = c₀ :: cs) (hr : c₀.prog.isRead = true) (hw : s.worker.waits = true)
    (hc : cs.all (fun c => c.prog.wants == some l) = true)
    (hh : s.sh.held.any (fun h => h.lock == l && h.excl) = true) : t = .client 0 := by
  obtain ⟨hs, b, hb⟩ := h
  have tail : ∀ {x : Tid} {c : Act}, s.sh.trace ++ [(x, c)] = s.sh.trace ++ [(t, b)] → t = x := by
    intro x c h
    have := List.append_cancel_left h
    cases this; rfl
  have idle : ∀ {a p}, ¬ s.worker.Next a p := by
    intro a p hn
    rw [waits_iff hw] at hn; cases hn
  have who : ∀ {i : Nat} {c : Client} {a : Act} {p : Prog Resp}, s.clients[i]? = some c → c.prog.Next a p →
      i = 0 ∧ (∃ e q, a = .got e q) ∨ a = .lock l ∨ a = .rlock l := by
    intro i c a p hi hn
    rw [h0] at hi
    cases i with
    | zero =>
      cases hi
      revert hr hn
      generalize c₀.prog = q
      intro hr hn
      cases hn <;> first | exact .inl ⟨rfl, _, _, rfl⟩ | cases hr
    | succ i =>
      have := List.all_eq_true.1 hc c (List.mem_of_getElem? hi)
      revert this hn
      generalize c.prog = q
      intro hn this
      cases hn <;> simp [Comfo.Prog.wants] at this
      · exact .inr (.inl (by rw [this]))
      · exact .inr (.inr (by rw [this]))
  obtain ⟨x, hx, hx2⟩ := List.any_eq_true.1 hh
  simp only [Bool.and_eq_true, beq_iff_eq] at hx2
  cases hs with
  | client i c a p sh hi hn ha =>
    rcases who hi hn with ⟨rfl, -⟩ | rfl | rfl
    · simp only at hb
      rw [acts_trace ha] at hb
      exact tail hb
    · cases ha with
      | lock hl => exact absurd hx2.1 (hl x hx)
    · cases ha with
      | rlock hl => rw [hl x hx hx2.1] at hx2; cases hx2.2
  | worker a p sh hn ha => exact absurd hn idle
  | flush i c v p hi hn hwk => rcases who hi hn with ⟨-, e, q, h⟩ | h | h <;> cases h
  | flushed i c v p q hi hn hwk => exact absurd hwk idle

theorem duel_clock (n : Nat) : (n ≤ 9 → (duel n).sh.world.clock = 1000000000000) ∧
    (10 ≤ n → (duel n).sh.world.clock = 1000900000000) := by
  have key : ∀ n : Fin 44, (n.val ≤ 9 → (duel n).sh.world.clock = 1000000000000) ∧
    (10 ≤ n.val → (duel n).sh.world.clock = 1000900000000) := by decide +kernel
  rcases Nat.lt_or_ge n 44 with hn | hn
  · exact key ⟨n, hn⟩
  · rw [duel_end (by omega)]
    exact ⟨fun h => by omega, fun _ => (key 43).2 (by decide)⟩

theorem duel_prompt : Prompt ventServed.line duel 10 := by
  intro t m n hmn hmv hid a ha
  have hc0 := duel_clock m
  have hc1 := duel_clock (n + 1)
  by_cases hj : m ≤ 9 ∧ 9 ≤ n
  · have hw : t = .client 0 := by
      obtain ⟨s', h⟩ := hmv 9 hj.1 hj.2
      exact only_first_moves (l := .temp) h rfl (by decide +kernel) (by decide +kernel) (by decide +kernel)
        (by decide +kernel)
    subst hw
    obtain ⟨c, q, hc, hn⟩ := poised_idle duel_run hj.1 (idle_part duel_run hid hj.1 hj.2).1 ha
    have hr : (duel 9).clients[0]?.any (fun c => c.prog.isRead) = true := by decide +kernel
    rw [hc] at hr
    have hr : c.prog.isRead = true := hr
    have : lasting 10 a = 1000000000 + 10 := by
      revert hn hr
      generalize c.prog = p
      intro hn hr
      cases hn <;> first | rfl | cases hr
    rw [this]
    omega
  · have : (10 : Int) ≤ (lasting 10 a : Nat) := by
      cases a <;> simp [lasting] <;> omega
    omega

/-- No two goroutines are about to take the same lock. -/
theorem duel_apart (n : Nat) {t u : Tid} {l : Lock} {x b : Bool} (ht : Poised (duel n) t (taking l x))
    (hu : Poised (duel n) u (taking l b)) : u = t := by
  have key := duel_all (P := fun s => s.worker.waits = true ∧ s.clients.length ≤ 2 ∧
    (s.clients.map fun c => c.prog.wants).Pairwise (fun a b => a = none ∨ a ≠ b)) (by decide +kernel) n
  have wants : ∀ {t : Tid} {x : Bool}, Poised (duel n) t (taking l x) →
      ∃ i c, t = .client i ∧ (duel n).clients[i]? = some c ∧ c.prog.wants = some l := by
    intro t x h
    cases t with
    | worker =>
      obtain ⟨q, hn⟩ := h
      rw [waits_iff key.1] at hn; cases hn
    | client i =>
      obtain ⟨c, q, hc, hn⟩ := h
      refine ⟨i, c, rfl, hc, ?_⟩
      revert hn
      generalize c.prog = p
      intro hn
      cases x <;> cases hn <;> rfl
  obtain ⟨i, c, rfl, hc, hl⟩ := wants ht
  obtain ⟨j, d, rfl, hd, hk⟩ := wants hu
  have differ : ∀ {i j : Nat} {c d : Client}, (duel n).clients[i]? = some c → (duel n).clients[j]? = some d →
      c.prog.wants = some l → d.prog.wants = some l → ¬ i < j := by
    intro i j c d hc hd hl hk hij
    obtain ⟨hi', ei⟩ := List.getElem?_eq_some_iff.1 hc
    obtain ⟨hj', ej⟩ := List.getElem?_eq_some_iff.1 hd
    have := List.pairwise_iff_getElem.1 key.2.2 i j (by simpa using hi') (by simpa using hj') hij
    simp only [List.getElem_map, ei, ej, hl, hk] at this
    rcases this with h | h
    · cases h
    · exact h rfl
  have h1 := differ hc hd hl hk
  have h2 := differ hd hc hk hl
  rw [show j = i by omega]

theorem duel_queued : Queued duel := by
  intro l x t m n hmn ht hid u b _ hne htr
  exfalso
  have h1 := poised_idle duel_run hmn hid ht
  rcases step_acts (duel_run.next n) u with e | ⟨a, hp, e⟩
  · rw [htr, actsOf_append, acts_one, if_pos rfl] at e
    have := congrArg List.length e
    simp at this
  · rw [htr, actsOf_append, acts_one, if_pos rfl] at e
    have := List.append_cancel_left e
    cases this
    exact hne (duel_apart n h1 hp)

/-- The second request waits for the first one for 0.9 s, and `C107_set` says that it is answered within 16 s. -/
example : (duel 2).clients[1]? = some { call := .setComfort 23, prog := (Call.setComfort 23).prog ventServed.cv } ∧
    (duel 42).sh.world.clock - (duel 2).sh.world.clock = 900000000 ∧
    (duel 43).sh.world.clock ≤ (duel 2).sh.world.clock + (2 * (8000000000 + 100 * 10) : Nat) ∧
    ∃ r, Answered (duel 43) 1 (.setComfort 23) r := by
  refine ⟨rfl, by decide +kernel, ?_, ⟨_, rfl⟩⟩
  refine C107_set (δ := 10) (r := 0) (n := 42) (i := 1) (c := .setComfort 23) (fun e s => by
    simp only [ventServed, vent, ventLine]
    split <;> simp) (fun _ h => h) duel_run duel_prompt duel_queued (by omega) rfl rfl ?_ ?_ ?_
  · intro v h
    unfold Answered at h
    have : (duel 42).clients[1]?.any (isRival (.setComfort 23)) = true := by decide +kernel
    rw [h] at this
    cases this
  · intro k id _ _
    have := duel_all (P := fun s => ∀ id, readers s id = 0) (by
      intro n id
      revert n
      cases id <;> decide +kernel) k id
    omega
  · intro k _ _
    exact duel_all (P := fun s => workload 10 0 (.setComfort 23) s ≤ 2 * (8000000000 + 100 * 10))
      (by decide +kernel) k

end Comfo.Props
