import Verif.Lemmas.Tight
import Verif.Lemmas.Exec
/-!
# C106: how long a Get request takes

A Get request waits for the lock of its cache, and whoever refreshes that cache holds the lock for as long
as the unit takes to answer, and as long as others use the line. The time is bounded nevertheless.
-/
namespace Comfo.Props
open Spec Pace

variable {S : Setup σ} {w : World σ} {f : Nat → Sys σ}

/-- Where a Get request stands. -/
theorem get_at {s : Sys σ} (h : Reachable S (Sys.initial w) s) {i : Nat} {c : Client} {id : CacheId}
    (hc : s.clients[i]? = some c) (hg : c.call = getCall id) :
    (actsOf (.client i) s.sh.trace = [] ∧ c.prog = (getCall id).prog S.cv) ∨
    (actsOf (.client i) s.sh.trace = [.lock (.cache id)] ∧ ∃ k, c.prog = .load id k) ∨
    (∃ e, actsOf (.client i) s.sh.trace = [.lock (.cache id), .load id e] ∧
      ∃ k, c.prog = .unlock (.cache id) k) ∨
    (∃ v, c.prog = .ret v) ∧ (actsOf (.client i) s.sh.trace).length = 3 := by
  obtain ⟨g, hi⟩ := inv1 h
  obtain ⟨a, ha⟩ : ∃ a : CVal id → Resp, (getCall id).prog S.cv = .lock (.cache id)
      (.load id fun c => .unlock (.cache id) (.ret (a c.val))) := by
    cases id <;> exact ⟨getAnswer _, rfl⟩
  have hpath := (hi.hist.path i c hc).1
  rw [hg, ha] at hpath
  rw [ha]
  suffices H : (actsOf (.client i) s.sh.trace = [] ∧
        c.prog = .lock (.cache id) (.load id fun c => .unlock (.cache id) (.ret (a c.val)))) ∨
      (actsOf (.client i) s.sh.trace = [.lock (.cache id)] ∧
        c.prog = .load id fun c => .unlock (.cache id) (.ret (a c.val))) ∨
      (∃ e, actsOf (.client i) s.sh.trace = [.lock (.cache id), .load id e] ∧
        ∃ v, c.prog = .unlock (.cache id) (.ret v)) ∨
      (∃ v, c.prog = .ret v) ∧ (actsOf (.client i) s.sh.trace).length = 3 by
    rcases H with h | ⟨h1, h2⟩ | ⟨e, h1, v, h2⟩ | h
    · exact .inl h
    · exact .inr (.inl ⟨h1, _, h2⟩)
    · exact .inr (.inr (.inl ⟨e, h1, _, h2⟩))
    · exact .inr (.inr (.inr h))
  generalize c.prog = q at hpath
  generalize actsOf (.client i) s.sh.trace = as at hpath
  induction hpath with
  | nil => exact .inl ⟨rfl, rfl⟩
  | snoc _ hn ih =>
    rcases ih with ⟨rfl, rfl⟩ | ⟨rfl, rfl⟩ | ⟨e, rfl, v, rfl⟩ | ⟨⟨v, rfl⟩, -⟩
    · cases hn; exact .inr (.inl ⟨rfl, rfl⟩)
    · cases hn; exact .inr (.inr (.inl ⟨_, rfl, _, rfl⟩))
    · cases hn; exact .inr (.inr (.inr ⟨⟨_, rfl⟩, rfl⟩))
    · cases hn

/-- A Get request that has begun and not ended holds the lock. -/
theorem get_holds {s : Sys σ} (h : Reachable S (Sys.initial w) s) {i : Nat} {c : Client} {id : CacheId}
    (hc : s.clients[i]? = some c) (hg : c.call = getCall id) (hr : ∀ v, c.prog ≠ .ret v)
    (ha : actsOf (.client i) s.sh.trace ≠ []) : ⟨.cache id, true, .client i⟩ ∈ s.sh.held := by
  obtain ⟨g, hi⟩ := inv1 h
  have hG : Glob1 g s.sh := hi.glob
  refine (hG.held_iff _ _ _).1 ?_
  rw [(hi.hist.path i c hc).2]
  rcases get_at h hc hg with ⟨e, -⟩ | ⟨e, -⟩ | ⟨x, e, -⟩ | ⟨⟨v, e⟩, -⟩
  · exact absurd e ha
  · rw [e]; exact List.mem_cons_self
  · rw [e]; exact List.mem_cons_self
  · exact absurd e (hr v)

theorem held_acts {s : Sys σ} (h : Reachable S (Sys.initial w) s) {l : Lock} {b : Bool} {u : Tid}
    (hh : ⟨l, b, u⟩ ∈ s.sh.held) : actsOf u s.sh.trace ≠ [] := by
  obtain ⟨pre, post, h1, -⟩ := held_trace h _ hh
  intro e
  have : taking l b ∈ actsOf u s.sh.trace := mem_actsOf.2 (by rw [h1]; simp)
  rw [e] at this; cases this

/-- A Get request holds the lock only for a moment. -/
theorem get_hold (hL : S.line.NoPanic) (hf : Execution S w f) {δ : Nat} (hp : Prompt S.line f δ) {i : Nat}
    {id : CacheId} {b : Bool} {c d : Nat} (hcd : c ≤ d)
    (hg : ∀ k, c ≤ k → ∃ x, (f k).clients[i]? = some x ∧ x.call = getCall id)
    (hh : ∀ k, c ≤ k → k ≤ d → ⟨.cache id, b, .client i⟩ ∈ (f k).sh.held) :
    (f (d + 1)).sh.world.clock ≤ (f c).sh.world.clock + (2 * δ : Nat) := by
  have pos : ∀ k, c ≤ k → k ≤ d → (actsOf (.client i) (f k).sh.trace).length ≤ 2 ∧
      ∀ y, Poised (f k) (.client i) y → lasting δ y = δ ∧ y ≠ .lock .pm := by
    intro k h1 h2
    obtain ⟨x, e1, e2⟩ := hg k h1
    rcases get_at (run_reach hf k) e1 e2 with ⟨e, -⟩ | ⟨e, p, e3⟩ | ⟨z, e, p, e3⟩ | ⟨⟨v, e⟩, -⟩
    · exact absurd e (held_acts (run_reach hf k) (hh k h1 h2))
    · refine ⟨by rw [e]; simp, ?_⟩
      rintro y ⟨x', q, hx, hn⟩
      rw [e1] at hx; cases hx
      rw [e3] at hn; cases hn
      exact ⟨rfl, by simp⟩
    · refine ⟨by rw [e]; simp, ?_⟩
      rintro y ⟨x', q, hx, hn⟩
      rw [e1] at hx; cases hx
      rw [e3] at hn; cases hn
      exact ⟨rfl, by simp⟩
    · exfalso
      rcases holder hL (run_reach hf k) (.inr ⟨id, rfl⟩) (hh k h1 h2) with ⟨y, ⟨x', q, hx, hn⟩, -⟩ |
          ⟨⟨x', q, hx, hn⟩, -⟩ <;> rw [e1] at hx <;> cases hx <;> rw [e] at hn <;> cases hn
  have go : ∀ k, c ≤ k → k ≤ d → ∃ y, Poised (f k) (.client i) y ∧ ∃ s', Moves S.line (.client i) (f k) s' := by
    intro k h1 h2
    refine (holder hL (run_reach hf k) (.inr ⟨id, rfl⟩) (hh k h1 h2)).resolve_right fun h => ?_
    exact ((pos k h1 h2).2 _ h.1).2 rfl
  obtain ⟨as, y, h1, h2, h3⟩ := chain hf hcd (fun _ => δ) (fun _ _ _ => rfl)
    (fun k k1 k2 => (go k k1 k2).imp fun _ h => h.1)
    (fun k n y k1 k2 k3 hi hy => by
      have := hp (.client i) k n k2
        (fun j j1 j2 => (go j (Nat.le_trans k1 j1) (Nat.le_trans j2 k3)).choose_spec.2) hi y hy
      rwa [((pos k k1 (Nat.le_trans k2 k3)).2 y hy).1] at this)
  have hl := (pos d hcd (Nat.le_refl _)).1
  have hn : actsOf (.client i) (f c).sh.trace ≠ [] := held_acts (run_reach hf c) (hh c (Nat.le_refl _) hcd)
  have hlen : as.length ≤ 1 := by
    have := List.length_pos_iff.2 hn
    rw [h1, List.length_append] at hl
    omega
  have : ((as ++ [y]).map fun _ => δ).sum = (as.length + 1) * δ := by
    generalize as = l
    induction l with
    | nil => simp
    | cons a l ih => simp only [List.cons_append, List.map_cons, List.sum_cons, ih, List.length_cons, Nat.add_mul]; omega
  have : (as.length + 1) * δ ≤ 2 * δ := Nat.mul_le_mul_right _ (by omega)
  omega

/-- The outer lock of the requests that refresh a cache. -/
def outerOf : CacheId → Lock
  | .temps => .temp
  | _ => .fan

theorem touches_outer {c : Call} {id : CacheId} (h : touches c id) :
    outer c = some (outerOf id) ∧ refreshers id = 2 := by
  cases c <;> first
    | exact absurd h not_false
    | (rcases h with rfl | rfl <;> exact ⟨rfl, rfl⟩)
    | (cases (h : id = _); exact ⟨rfl, rfl⟩)

/-- **C106** (1) At any time, at most two goroutines refresh a cache or wait to do so, and but one if it is
the cache of the boot information, the bypass or the errors. -/
theorem C106_refreshers (hS : ∀ c, S.calls c → OnServer c) {s : Sys σ}
    (h : Reachable S (Sys.initial w) s) {id : CacheId} {ts : List Tid} (hn : ts.Nodup)
    (ha : ∀ t ∈ ts, Refreshing s id t) :
    ts.length ≤ refreshers id := by
  have who : ∀ i, .client i ∈ ts → refreshers id = 2 ∧ ⟨outerOf id, true, .client i⟩ ∈ s.sh.held := by
    intro i hi
    obtain ⟨a1, a2⟩ := ha _ hi
    obtain ⟨c, e1, e2⟩ := at_cache hS h a1
    obtain ⟨ht, l, e3, e4⟩ := e2.resolve_left (a2 i c rfl e1)
    obtain ⟨e5, e6⟩ := touches_outer ht
    rw [e5] at e3; cases e3
    exact ⟨e6, e4⟩
  by_cases hc : ∃ i, Tid.client i ∈ ts
  · obtain ⟨i, hi⟩ := hc
    rw [(who i hi).1]
    refine nodup_le (l₂ := [.worker, .client i]) hn fun t ht => ?_
    cases t with
    | worker => simp
    | client j =>
      obtain ⟨g, hinv⟩ := inv1 h
      have hG : Glob1 g s.sh := hinv.glob
      have := hG.excl _ (who i hi).2 _ (who j ht).2 rfl rfl
      cases this
      simp
  · have := nodup_le (l₂ := [Tid.worker]) hn fun t ht => by
      cases t with
      | worker => simp
      | client j => exact absurd ⟨j, ht⟩ hc
    refine Nat.le_trans this ?_
    cases id <;> decide

theorem countP_idx {α : Type} (p : α → Bool) (l : List α) :
    ((List.range l.length).filter fun j => (l[j]?).any p).length = l.countP p := by
  induction l with
  | nil => rfl
  | cons x l ih =>
    rw [List.length_cons, List.range_succ_eq_map, List.filter_cons, List.filter_map, List.countP_cons, ← ih]
    have : ((fun j => ((x :: l)[j]?).any p) ∘ Nat.succ) = fun j => (l[j]?).any p := by
      funext j; simp
    rw [this]
    simp only [List.getElem?_cons_zero, Option.any_some]
    split <;> simp

theorem readers_le {s : Sys σ} {id : CacheId} {ts : List Tid} (hn : ts.Nodup)
    (h : ∀ t ∈ ts, ∃ i c, t = .client i ∧ s.clients[i]? = some c ∧ isReading id c = true) :
    ts.length ≤ readers s id := by
  unfold readers
  rw [← countP_idx, ← List.length_map (f := Tid.client)]
  refine nodup_le hn fun t ht => ?_
  obtain ⟨i, c, rfl, e, hr⟩ := h t ht
  refine List.mem_map.2 ⟨i, List.mem_filter.2 ⟨List.mem_range.2 (List.getElem?_eq_some_iff.1 e).1, ?_⟩, rfl⟩
  rw [e]; exact hr

/-- Only the worker refreshes a cache whose values nobody changes. -/
theorem only_worker (hL : S.line.NoPanic) (hS : ∀ c, S.calls c → OnServer c) {s : Sys σ}
    (h : Reachable S (Sys.initial w) s) {id : CacheId}
    (hc : ∀ c ∈ s.clients, touches c.call id → ∃ r, c.prog = .ret r) {ts : List Tid} (hn : ts.Nodup)
    (ha : ∀ t ∈ ts, Refreshing s id t) : ts.length ≤ 1 := by
  refine nodup_le (l₂ := [Tid.worker]) hn fun t ht => ?_
  cases t with
  | worker => simp
  | client j =>
    exfalso
    obtain ⟨a1, a2⟩ := ha _ ht
    obtain ⟨c, e1, e2⟩ := at_cache hS h a1
    obtain ⟨hx, -⟩ := e2.resolve_left (a2 j c rfl e1)
    obtain ⟨r, e⟩ := hc c (List.mem_of_getElem? e1) hx
    obtain ⟨b, ⟨x', q, h1, h2⟩ | hh⟩ := a1
    · rw [e1] at h1; cases h1; rw [e] at h2; cases h2
    · rcases holder hL h (.inr ⟨id, rfl⟩) hh with ⟨y, ⟨x', q, h1, hn⟩, -⟩ |
        ⟨⟨x', q, h1, hn⟩, -⟩ <;> rw [e1] at h1 <;> cases h1 <;> rw [e] at hn <;> cases hn

/-- Whenever `u` has the lock while the Get request of client `i` waits for it, somebody else waits for it who
refreshes the cache. -/
def Yields (f : Nat → Sys σ) (i : Nat) (id : CacheId) (m : Nat) (u : Tid) : Prop :=
  ∀ k, m ≤ k → Still f (.client i) m k → ⟨.cache id, true, u⟩ ∈ (f k).sh.held →
    ∃ v x, Refreshing (f m) id v ∧ Poised (f m) v (taking (.cache id) x) ∧ Still f v m k

open Classical in
/-- How long `u` has the lock at the most. -/
noncomputable def pay (f : Nat → Sys σ) (i : Nat) (id : CacheId) (m δ : Nat) (u : Tid) : Nat :=
  if Yields f i id m u then 2000000000 + 16 * δ else 3000000000 + 21 * δ

theorem pay_hold (hL : S.line.NoPanic) (hS : ∀ c, S.calls c → OnServer c) (hf : Execution S w f) {δ : Nat}
    (hp : Prompt S.line f δ) (hq : Queued f) {i : Nat} {id : CacheId} {u : Tid} {b : Bool} {m c d : Nat}
    (hmc : m ≤ c) (hcd : c ≤ d) (hs : Still f (.client i) m d)
    (hh : ∀ k, c ≤ k → k ≤ d → ⟨.cache id, b, u⟩ ∈ (f k).sh.held) :
    (f (d + 1)).sh.world.clock ≤ (f c).sh.world.clock + (pay f i id m δ u : Nat) := by
  unfold pay
  split
  · rename_i hy
    cases b with
    | false =>
      have := hold_shared hL hf hp hcd hh
      omega
    | true =>
      exact hold_cache_less hL hS hf hp hq hmc hcd hh fun k k1 k2 =>
        hy k (Nat.le_trans hmc k1) (idle_part hf hs (Nat.le_trans hmc k1) k2).1 (hh k k1 k2)
  · exact hold_cache hL hS hf hp hq hcd hh

/-- Of two who refresh the cache one waits for the other. -/
theorem one_yields (hf : Execution S w f) (hq : Queued f) {i : Nat} {id : CacheId} {m : Nat}
    (ht : Poised (f m) (.client i) (.lock (.cache id))) {u v : Tid} (huv : u ≠ v)
    (hu : Refreshing (f m) id u) (hv : Refreshing (f m) id v) (hui : u ≠ .client i) (hvi : v ≠ .client i) :
    Yields f i id m u ∨ Yields f i id m v := by
  by_cases h1 : Yields f i id m u
  · exact .inl h1
  by_cases h2 : Yields f i id m v
  · exact .inr h2
  exfalso
  unfold Yields at h1 h2
  simp only [Classical.not_forall, not_exists, not_and, exists_prop] at h1 h2
  obtain ⟨j, j1, j2, j3, j4⟩ := h1
  obtain ⟨k, k1, k2, k3, k4⟩ := h2
  have key : ∀ {u v : Tid} {j k : Nat}, u ≠ v → Refreshing (f m) id v → v ≠ .client i → m ≤ j →
      Still f (.client i) m k → ⟨.cache id, true, u⟩ ∈ (f j).sh.held → ⟨.cache id, true, v⟩ ∈ (f k).sh.held →
      (∀ v x, Refreshing (f m) id v → Poised (f m) v (taking (.cache id) x) → ¬ Still f v m j) → j ≤ k → False := by
    intro u v j k huv hv hvi hmj hs hj hk hno hjk
    have free : ⟨.cache id, true, v⟩ ∉ (f j).sh.held := by
      intro h
      obtain ⟨g, hi⟩ := inv1 (run_reach hf j)
      have hG : Glob1 g (f j).sh := hi.glob
      have := hG.excl _ hj _ h rfl rfl
      cases this
      exact huv rfl
    obtain ⟨n, n1, n2, n3⟩ : ∃ n, j ≤ n ∧ n ≤ k ∧
        (f (n + 1)).sh.trace = (f n).sh.trace ++ [(v, taking (.cache id) true)] := by
      clear hs
      induction hjk with
      | refl => exact absurd hk free
      | @step k hjk ih =>
        rcases held_before (hf.next k) hk with h | h
        · obtain ⟨n, n1, n2, n3⟩ := ih h
          exact ⟨n, n1, Nat.le_succ_of_le n2, n3⟩
        · exact ⟨k, hjk, Nat.le_succ k, h⟩
    obtain ⟨q1, q2⟩ := hq (.cache id) true (.client i) m n (Nat.le_trans hmj n1) ht
      (idle_part hf hs (Nat.le_trans hmj n1) n2).1 v true rfl hvi n3
    exact hno v true hv q1 (idle_part hf q2 hmj n1).1
  rcases Nat.le_total j k with h | h
  · exact key huv hv hvi j1 k2 j3 k3 j4 h
  · exact key huv.symm hu hui k1 j2 k3 j3 k4 h

theorem pay_le (f : Nat → Sys σ) (i : Nat) (id : CacheId) (m δ : Nat) (u : Tid) :
    pay f i id m δ u ≤ 3000000000 + 21 * δ := by
  unfold pay
  split <;> omega

/-- All of them together. -/
theorem pay_sum (hS : ∀ c, S.calls c → OnServer c) (hf : Execution S w f) (hq : Queued f) {i : Nat} {id : CacheId}
    {m : Nat} (δ : Nat) {c : Client} (ha : (f m).clients[i]? = some c) (hg : c.call = getCall id)
    (ht : Poised (f m) (.client i) (.lock (.cache id))) {ts : List Tid} (hn : ts.Nodup)
    (hr : ∀ t ∈ ts, Refreshing (f m) id t) :
    (ts.map fun u => pay f i id m δ u + δ).sum ≤ turnover δ id := by
  have hl := C106_refreshers hS (run_reach hf m) hn hr
  have hne : ∀ t, Refreshing (f m) id t → t ≠ .client i := by
    rintro t h rfl
    exact h.2 i c rfl ha hg
  match ts, hn, hr, hl with
  | [], _, _, _ => exact Nat.zero_le _
  | [u], _, _, _ =>
    have := pay_le f i id m δ u
    have : 3000000000 + 22 * δ ≤ turnover δ id := by cases id <;> simp only [turnover] <;> omega
    simp only [List.map_cons, List.map_nil, List.sum_cons, List.sum_nil]
    omega
  | [u, v], hn, hr, hl =>
    have h1 := pay_le f i id m δ u
    have h2 := pay_le f i id m δ v
    have hu := hr u (by simp)
    have hv := hr v (by simp)
    have : turnover δ id = 5000000000 + 39 * δ := by
      cases id <;> first | rfl | exact absurd (show 2 ≤ 1 from hl) (by decide)
    have : pay f i id m δ u + pay f i id m δ v ≤ 5000000000 + 37 * δ := by
      rcases one_yields hf hq ht (by simpa using hn) hu hv (hne u hu) (hne v hv) with h | h
      · have : pay f i id m δ u = 2000000000 + 16 * δ := if_pos h
        omega
      · have : pay f i id m δ v = 2000000000 + 16 * δ := if_pos h
        omega
    simp only [List.map_cons, List.map_nil, List.sum_cons, List.sum_nil]
    omega
  | _ :: _ :: _ :: _, _, _, hl =>
    exfalso
    have : refreshers id ≤ 2 := by cases id <;> decide
    simp only [List.length_cons] at hl
    omega

theorem get_poised {s : Sys σ} {i : Nat} {id : CacheId}
    (ha : s.clients[i]? = some { call := getCall id, prog := (getCall id).prog S.cv }) :
    Poised s (.client i) (.lock (.cache id)) := by
  obtain ⟨a, ha'⟩ : ∃ a, (getCall id).prog S.cv = .lock (.cache id) a := by cases id <;> exact ⟨_, rfl⟩
  exact ⟨_, a, ha, by rw [show (Client.mk (getCall id) ((getCall id).prog S.cv)).prog = _ from ha']; exact .lock⟩

theorem get_time (hL : S.line.NoPanic) (hS : ∀ c, S.calls c → OnServer c) (hf : Execution S w f) {δ : Nat}
    (hp : Prompt S.line f δ) (hq : Queued f) {i : Nat} {id : CacheId} {m n : Nat} (hmn : m ≤ n)
    (ha : (f m).clients[i]? = some { call := getCall id, prog := (getCall id).prog S.cv })
    (hu : ∀ r, ¬ Answered (f n) i (getCall id) r) {B : Nat}
    (hB : ∀ ts : List Tid, ts.Nodup → (∀ t ∈ ts, Refreshing (f m) id t) →
      (ts.map fun u => pay f i id m δ u + δ).sum ≤ B) :
    (f (n + 1)).sh.world.clock ≤ (f m).sh.world.clock + (B + 3 * readers (f m) id * δ : Nat) := by
  classical
  have hi0 : actsOf (.client i) (f m).sh.trace = [] := by
    obtain ⟨a, ha'⟩ : ∃ a, (getCall id).prog S.cv = .lock (.cache id) a := by cases id <;> exact ⟨_, rfl⟩
    rcases get_at (run_reach hf m) ha rfl with ⟨e, -⟩ | ⟨-, k, e⟩ | ⟨-, -, k, e⟩ | ⟨⟨v, e⟩, -⟩
    · exact e
    all_goals (rw [show (Client.mk (getCall id) ((getCall id).prog S.cv)).prog = _ from ha'] at e; cases e)
  have ht : Poised (f m) (.client i) (.lock (.cache id)) := get_poised ha
  have stays : ∀ {j : Nat} {x : Client}, (f m).clients[j]? = some x → ∀ k, m ≤ k →
      ∃ y, (f k).clients[j]? = some y ∧ y.call = x.call := by
    intro j x hx k hk
    induction hk with
    | refl => exact ⟨x, hx, rfl⟩
    | @step k _ ih =>
      obtain ⟨y, h1, h2⟩ := ih
      obtain ⟨z, h3, h4⟩ := call_stays (hf.next k) h1
      exact ⟨z, h3, h4.trans h2⟩
  -- those before it
  let ws := (tids (f m)).filter fun u => decide (u ≠ .client i ∧ AtCache (f m) id u)
  let get : Tid → Prop := fun u => ∃ j x, u = .client j ∧ (f m).clients[j]? = some x ∧ x.call = getCall id
  let cost : Tid → Nat := fun u => if get u then 2 * δ else pay f i id m δ u
  have hnd : ws.Nodup := (tids_nodup _).filter _
  have hat : ∀ u ∈ ws, u ≠ .client i ∧ AtCache (f m) id u := by
    intro u hu
    simpa using (List.mem_filter.1 hu).2
  have hR : ((ws.filter fun u => !decide (get u)).map fun u => pay f i id m δ u + δ).sum ≤ B := by
    refine hB _ (hnd.filter _) fun t h => ?_
    obtain ⟨h1, h2⟩ := List.mem_filter.1 h
    refine ⟨(hat t h1).2, fun j c e e2 e3 => ?_⟩
    have : ¬ get t := by simpa using h2
    exact this ⟨j, c, e, e2, e3⟩
  have reading : ∀ j x, AtCache (f m) id (.client j) → (f m).clients[j]? = some x → x.call = getCall id →
      isReading id x = true := by
    intro j x hx hj hg
    have hr : ∀ v, x.prog ≠ .ret v := by
      intro v e
      obtain ⟨b, ⟨x', q, h1, h2⟩ | hh⟩ := hx
      · rw [hj] at h1; cases h1; rw [e] at h2; cases h2
      · rcases holder hL (run_reach hf m) (.inr ⟨id, rfl⟩) hh with ⟨y, ⟨x', q, h1, hn⟩, -⟩ |
          ⟨⟨x', q, h1, hn⟩, -⟩ <;> rw [hj] at h1 <;> cases h1 <;> rw [e] at hn <;> cases hn
    unfold isReading
    split
    · rename_i v e; exact absurd e (hr v)
    · simpa using hg
  have hG : (ws.filter fun u => decide (get u)).length + 1 ≤ readers (f m) id := by
    have := readers_le (s := f m) (id := id) (ts := .client i :: ws.filter fun u => decide (get u))
      (List.nodup_cons.2 ⟨fun h => (hat _ (List.mem_filter.1 h).1).1 rfl, hnd.filter _⟩) (by
        intro t h
        rcases List.mem_cons.1 h with rfl | h
        · exact ⟨i, _, rfl, ha, reading i _ ⟨true, .inl ht⟩ ha rfl⟩
        · obtain ⟨h1, h2⟩ := List.mem_filter.1 h
          obtain ⟨j, x, rfl, e1, e2⟩ : get t := by simpa using h2
          exact ⟨j, x, rfl, e1, reading j x (hat _ h1).2 e1 e2⟩)
    simpa using this
  have hsum : (ws.map fun u => cost u + δ).sum ≤
      B + (readers (f m) id - 1) * (3 * δ) := by
    have split : ∀ l : List Tid, (l.map fun u => cost u + δ).sum =
        ((l.filter fun u => !decide (get u)).map fun u => pay f i id m δ u + δ).sum +
          (l.filter fun u => decide (get u)).length * (3 * δ) := by
      intro l
      induction l with
      | nil => simp
      | cons u l ih =>
        rw [List.map_cons, List.sum_cons, ih, List.filter_cons, List.filter_cons]
        by_cases hg : get u
        · simp only [cost, hg, if_true, decide_true, Bool.not_true, Bool.false_eq_true, if_false,
            List.length_cons, Nat.add_mul]
          omega
        · simp only [cost, hg, decide_false, Bool.not_false, Bool.false_eq_true, if_false, if_true,
            List.map_cons, List.sum_cons]
          omega
    rw [split]
    exact Nat.add_le_add hR (Nat.mul_le_mul_right _ (by omega))
  -- until it gets the lock
  obtain ⟨d, d1, d2, d3, d4⟩ := stretch (P := fun k => Still f (.client i) m k) hmn rfl
  have hid := d3 d d1 (Nat.le_refl _)
  have hwait := wait_lock hf hp hq ht hid cost
    (fun u b c e c1 c2 c3 hh => by
      by_cases hg : get u
      · simp only [cost, hg, if_true]
        obtain ⟨j, x, rfl, e1, e2⟩ := hg
        refine get_hold hL hf hp c2 (fun k hk => ?_) hh
        obtain ⟨y, y1, y2⟩ := stays e1 k (Nat.le_trans c1 hk)
        exact ⟨y, y1, y2.trans e2⟩
      · simp only [cost, hg, if_false]
        exact pay_hold hL hS hf hp hq c1 c2 (idle_part hf hid (Nat.le_trans c1 c2) c3).1 hh) ws m (Nat.le_refl _) d1
    (by
      rintro u hu ⟨b, h⟩
      have hal : AtCache (f m) id u := ⟨b, h.symm.imp (fun h => h.1) _root_.id⟩
      refine List.mem_filter.2 ⟨tids_mem (run_reach hf m) ?_, by simpa using ⟨hu, hal⟩⟩
      exact h.symm.imp (fun h => ⟨_, h.1⟩) (fun h => ⟨_, _, h⟩))
    (fun k b h1 h2 => lock_free (run_reach hf k) (poised_idle hf h1 (idle_part hf hid h1 h2).1 ht))
  have hr3 : 3 * readers (f m) id * δ = (readers (f m) id - 1) * (3 * δ) + 3 * δ := by
    obtain ⟨r, hr⟩ : ∃ r, readers (f m) id = r + 1 := ⟨readers (f m) id - 1, by omega⟩
    rw [hr, Nat.add_sub_cancel, Nat.mul_add, Nat.add_mul, ← Nat.mul_assoc, Nat.mul_comm 3 r]
  rw [hr3]
  by_cases hd : d = n
  · subst hd; omega
  · -- while it has it
    have d5 : ¬ Still f (.client i) m (d + 1) := d4.resolve_left hd
    have hdn : d + 1 ≤ n := by omega
    have begun : ∀ k, d + 1 ≤ k → actsOf (.client i) (f k).sh.trace ≠ [] := by
      intro k hk e
      have := acts_grow hf (.client i) hk
      rw [e, List.prefix_nil] at this
      exact d5 (by unfold Still; rw [this, hi0])
    have short : (actsOf (.client i) (f n).sh.trace).length ≤ 2 := by
      obtain ⟨y, y1, y2⟩ := stays ha n hmn
      rcases get_at (run_reach hf n) y1 y2 with ⟨e, -⟩ | ⟨e, -⟩ | ⟨z, e, -⟩ | ⟨⟨v, e⟩, -⟩
      · rw [e]; simp
      · rw [e]; simp
      · rw [e]; simp
      · refine absurd ?_ (hu v)
        unfold Answered
        rw [y1, ← e, ← show y.call = getCall id from y2]
    have hlast := get_hold (b := true) hL hf hp hdn (fun k hk => stays ha k (by omega)) (fun k k1 k2 => by
      obtain ⟨y, y1, y2⟩ := stays ha k (by omega)
      refine get_holds (run_reach hf k) y1 y2 ?_ (begun k k1)
      intro v e
      rcases get_at (run_reach hf k) y1 y2 with ⟨e', -⟩ | ⟨-, q, e'⟩ | ⟨-, -, q, e'⟩ | ⟨-, e'⟩
      · exact begun k k1 e'
      · rw [e] at e'; cases e'
      · rw [e] at e'; cases e'
      · have := (acts_grow hf (.client i) k2).length_le
        omega)
    omega

/-- **C106** (2) A Get request that is not answered yet at step `n` arrived at most five seconds ago, and at
most three for the boot information, the bypass and the errors, plus small change. -/
theorem C106_get (hL : S.line.NoPanic) (hS : ∀ c, S.calls c → OnServer c) (hf : Execution S w f) {δ : Nat}
    (hp : Prompt S.line f δ) (hq : Queued f) {i : Nat} {id : CacheId} {m n : Nat} (hmn : m ≤ n)
    (ha : (f m).clients[i]? = some { call := getCall id, prog := (getCall id).prog S.cv })
    (hu : ∀ r, ¬ Answered (f n) i (getCall id) r) :
    (f (n + 1)).sh.world.clock ≤ (f m).sh.world.clock +
      (turnover δ id + 3 * readers (f m) id * δ : Nat) :=
  get_time hL hS hf hp hq hmn ha hu fun _ h1 h2 => pay_sum hS hf hq δ ha rfl (get_poised ha) h1 h2

/-- **C106** (3) If no request that changes values of the cache is under way when it arrives, a Get request
is answered in time, whatever the unit does. -/
theorem C106_in_time (hL : S.line.NoPanic) (hS : ∀ c, S.calls c → OnServer c) (hf : Execution S w f) {δ : Nat}
    (hp : Prompt S.line f δ) (hq : Queued f) {i : Nat} {id : CacheId} {m n : Nat} (hmn : m ≤ n)
    (ha : (f m).clients[i]? = some { call := getCall id, prog := (getCall id).prog S.cv })
    (hc : ∀ c ∈ (f m).clients, touches c.call id → ∃ r, c.prog = .ret r)
    (hδ : (22 + 3 * readers (f m) id) * δ < 2000000000)
    (hu : ∀ r, ¬ Answered (f n) i (getCall id) r) :
    InTime (f m).sh.world.clock (f (n + 1)).sh.world.clock := by
  have := get_time hL hS hf hp hq hmn ha hu (B := 3000000000 + 22 * δ) fun ts h1 h2 => by
    have hl := only_worker hL hS (run_reach hf m) hc h1 h2
    match ts, hl with
    | [], _ => exact Nat.zero_le _
    | [u], _ =>
      have := pay_le f i id m δ u
      simp only [List.map_cons, List.map_nil, List.sum_cons, List.sum_nil]
      omega
  unfold InTime writeTimeout
  rw [Nat.add_mul] at hδ
  omega

/-! ## An example -/

/-- The ticker fires, the worker takes the lock of the boot information and asks the unit for it; meanwhile
a request for it arrives. -/
def slowBefore : List Cmd := [.tick .glacial, .go .worker, .arrive .getBoot] ++ steps 5 .worker

/-- The unit answers, the worker gives the lock back, the request is answered. -/
def slowAfter : List Cmd := steps 5 .worker ++ steps 3 (.client 0)

theorem execs_append (S : Setup σ) (xs ys : List Cmd) (s : Sys σ) :
    Sys.execs S (xs ++ ys) s = (Sys.execs S xs s).bind (Sys.execs S ys) := by
  induction xs generalizing s with
  | nil => rfl
  | cons x xs ih =>
    simp only [List.cons_append, Sys.execs]
    cases Sys.exec1 S x s with
    | none => rfl
    | some s' => exact ih s'

/-- A schedule, then nothing. -/
def playing (S : Setup σ) (cmds : List Cmd) (s : Sys σ) (n : Nat) : Sys σ :=
  (Sys.execs S (cmds.take n) s).getD s

theorem playing_step {S : Setup σ} {cmds : List Cmd} {s : Sys σ} (hS : ∀ c, .arrive c ∈ cmds → S.calls c)
    (hp : (Sys.execs S cmds s).isSome = true) (n : Nat) :
    Step S (playing S cmds s n) (playing S cmds s (n + 1)) ∨
      playing S cmds s (n + 1) = playing S cmds s n := by
  rcases Nat.lt_or_ge n cmds.length with h | h
  · left
    have e : cmds = cmds.take n ++ (cmds[n] :: cmds.drop (n + 1)) := by
      rw [List.getElem_cons_drop, List.take_append_drop]
    have e1 : cmds.take (n + 1) = cmds.take n ++ [cmds[n]] := by rw [List.take_succ_eq_append_getElem h]
    rw [e, execs_append] at hp
    unfold playing
    rw [e1, execs_append]
    cases h1 : Sys.execs S (cmds.take n) s with
    | none => rw [h1] at hp; cases hp
    | some s₁ =>
      rw [h1] at hp
      simp only [Option.bind_some, Sys.execs] at hp ⊢
      cases h2 : Sys.exec1 S cmds[n] s₁ with
      | none => rw [h2] at hp; cases hp
      | some s₂ => exact exec1_sound (fun c hc => hS c (hc ▸ List.getElem_mem h)) h2
  · right
    unfold playing
    rw [List.take_of_length_le h, List.take_of_length_le (by omega)]

def slowStart : World Vent := { ventStart 3 with clock := 1000000000000, adv := [7] }

/-- When the worker waits for the answer of the unit, 0.9 s pass. -/
def slowJump : Sys Vent :=
  let s := playing ventServed slowBefore (Sys.initial slowStart) 8
  { s with sh := { s.sh with world := { s.sh.world with clock := s.sh.world.clock + ((900000000 : Nat) : Int) } } }

def slow (n : Nat) : Sys Vent :=
  if n ≤ 8 then playing ventServed slowBefore (Sys.initial slowStart) n
  else playing ventServed slowAfter slowJump (n - 9)

theorem slow_run : Execution ventServed slowStart slow where
  start := rfl
  next n := by
    unfold slow
    rcases Nat.lt_trichotomy n 8 with h | rfl | h
    · rw [if_pos (by omega), if_pos (by omega)]
      exact playing_step (by
        intro c hc
        simp [slowBefore, steps] at hc
        rw [hc]; trivial) (by decide +kernel) n
    · left
      rw [if_pos (by omega), if_neg (by omega)]
      exact .environment _ 900000000 ⟨_, _, rfl⟩
    · rw [if_neg (by omega), if_neg (by omega), show n + 1 - 9 = (n - 9) + 1 by omega]
      exact playing_step (by
        intro c hc
        simp [slowAfter, steps] at hc) (by decide +kernel) _

/-- Nothing happens after step 17. -/
theorem slow_end {n : Nat} (h : 17 ≤ n) : slow n = slow 17 := by
  unfold slow playing
  rw [if_neg (by omega), if_neg (by omega), List.take_of_length_le (i := n - 9),
    List.take_of_length_le (i := 17 - 9)]
  · decide
  · show 8 ≤ n - 9
    omega

theorem slow_all {P : Sys Vent → Prop} (h : ∀ n : Fin 18, P (slow n)) (n : Nat) : P (slow n) := by
  rcases Nat.lt_or_ge n 18 with hn | hn
  · exact h ⟨n, hn⟩
  · rw [slow_end (by omega)]; exact h 17

/-- The lock a program is about to take. -/
def _root_.Comfo.Prog.wants : Prog α → Option Lock
  | .lock l _ | .rlock l _ => some l
  | _ => none

def _root_.Comfo.Prog.isRead : Prog α → Bool
  | .read _ _ => true
  | _ => false

/-- Only the worker can go on if all requests wait for a lock that is held. -/
theorem only_worker_moves {L : Line σ} {s s' : Sys σ} {t : Tid} {l : Lock} (h : Moves L t s s')
    (hc : s.clients.all (fun c => c.prog.wants == some l) = true)
    (hh : s.sh.held.any (fun h => h.lock == l && h.excl) = true) : t = .worker := by
  obtain ⟨hw, b, hb⟩ := h
  have tail : ∀ {x : Tid} {c : Act}, s.sh.trace ++ [(x, c)] = s.sh.trace ++ [(t, b)] → t = x := by
    intro x c h
    have := List.append_cancel_left h
    cases this; rfl
  have wants : ∀ {i : Nat} {c : Client} {a : Act} {p : Prog Resp}, s.clients[i]? = some c →
      c.prog.Next a p → a = .lock l ∨ a = .rlock l := by
    intro i c a p hi hn
    have := List.all_eq_true.1 hc c (List.mem_of_getElem? hi)
    revert this hn
    generalize c.prog = q
    intro hn this
    cases hn <;> simp [Comfo.Prog.wants] at this
    · exact .inl (by rw [this])
    · exact .inr (by rw [this])
  obtain ⟨x, hx, hx2⟩ := List.any_eq_true.1 hh
  simp only [Bool.and_eq_true, beq_iff_eq] at hx2
  cases hw with
  | client i c a p sh hi hn ha =>
    exfalso
    rcases wants hi hn with rfl | rfl
    · cases ha with
      | lock hl => exact hl x hx hx2.1
    · cases ha with
      | rlock hl => rw [hl x hx hx2.1] at hx2; cases hx2.2
  | worker a p sh hn ha =>
    simp only at hb
    rw [acts_trace ha] at hb
    exact tail hb
  | flush i c v p hi hn hwk => rcases wants hi hn with h | h <;> cases h
  | flushed i c v p q hi hn hwk => rcases wants hi hn with h | h <;> cases h

theorem slow_clock (n : Nat) : (n ≤ 8 → 1000000000000 ≤ (slow n).sh.world.clock ∧
      (slow n).sh.world.clock ≤ 1000000000007) ∧
    (9 ≤ n → (slow n).sh.world.clock = 1000900000007) := by
  have key : ∀ n : Fin 18, (n.val ≤ 8 → 1000000000000 ≤ (slow n).sh.world.clock ∧
      (slow n).sh.world.clock ≤ 1000000000007) ∧
    (9 ≤ n.val → (slow n).sh.world.clock = 1000900000007) := by decide +kernel
  rcases Nat.lt_or_ge n 18 with hn | hn
  · exact key ⟨n, hn⟩
  · rw [slow_end (by omega)]
    exact ⟨fun h => by omega, fun _ => (key 17).2 (by decide)⟩

/-- Nobody dawdles: the 0.9 s pass while the worker waits for the unit and the request for the worker. -/
theorem slow_prompt : Prompt ventServed.line slow 10 := by
  intro t m n hmn hmv hid a ha
  have hc0 := slow_clock m
  have hc1 := slow_clock (n + 1)
  by_cases hj : m ≤ 8 ∧ 8 ≤ n
  · -- the worker
    have hw : t = .worker := by
      obtain ⟨s', h⟩ := hmv 8 hj.1 hj.2
      exact only_worker_moves (l := .cache .boot) h (by decide +kernel) (by decide +kernel)
    subst hw
    have hp := poised_idle slow_run hj.1 (idle_part slow_run hid hj.1 hj.2).1 ha
    have hr : (slow 8).worker.isRead = true := by decide +kernel
    have : lasting 10 a = 1000000000 + 10 := by
      obtain ⟨q, hn⟩ := hp
      revert hn hr
      generalize (slow 8).worker = p
      intro hr hn
      cases hn <;> first | rfl | cases hr
    rw [this]
    omega
  · have : (10 : Int) ≤ (lasting 10 a : Nat) := by
      cases a <;> simp [lasting] <;> omega
    omega

/-- No two goroutines are about to take the same lock. -/
theorem slow_apart (n : Nat) {t u : Tid} {l : Lock} {x b : Bool} (ht : Poised (slow n) t (taking l x))
    (hu : Poised (slow n) u (taking l b)) : u = t := by
  have wants : ∀ {q r : Prog Unit} {a}, q.Next a r → (a = taking l x ∨ a = taking l b) → q.wants = some l := by
    intro q r a hn ha
    rcases ha with rfl | rfl
    · cases x <;> cases hn <;> rfl
    · cases b <;> cases hn <;> rfl
  have wants' : ∀ {q r : Prog Resp} {a}, q.Next a r → (a = taking l x ∨ a = taking l b) → q.wants = some l := by
    intro q r a hn ha
    rcases ha with rfl | rfl
    · cases x <;> cases hn <;> rfl
    · cases b <;> cases hn <;> rfl
  have key := slow_all (P := fun s => s.clients.length ≤ 1 ∧
    s.clients.all (fun c => c.prog.wants == none || c.prog.wants != s.worker.wants) = true) (by decide +kernel) n
  have one : ∀ {i c}, (slow n).clients[i]? = some c → i = 0 := by
    intro i c h
    have := (List.getElem?_eq_some_iff.1 h).1
    have := key.1
    omega
  have two : ∀ {i : Nat} {c : Client}, (slow n).clients[i]? = some c → c.prog.wants = some l →
      (slow n).worker.wants = some l → False := by
    intro i c h h1 h2
    have := List.all_eq_true.1 key.2 c (List.mem_of_getElem? h)
    rw [h1, h2] at this
    simp at this
  cases t with
  | worker =>
    obtain ⟨q, hn⟩ := ht
    cases u with
    | worker => rfl
    | client i =>
      obtain ⟨c, r, hc, hn'⟩ := hu
      exact (two hc (wants' hn' (.inr rfl)) (wants hn (.inl rfl))).elim
  | client j =>
    obtain ⟨c, q, hc, hn⟩ := ht
    cases u with
    | worker =>
      obtain ⟨r, hn'⟩ := hu
      exact (two hc (wants' hn (.inl rfl)) (wants hn' (.inr rfl))).elim
    | client i =>
      obtain ⟨d, r, hd, hn'⟩ := hu
      rw [one hc, one hd]

theorem slow_queued : Queued slow := by
  intro l x t m n hmn ht hid u b _ hne htr
  exfalso
  have h1 := poised_idle slow_run hmn hid ht
  rcases step_acts (slow_run.next n) u with e | ⟨a, hp, e⟩
  · rw [htr, actsOf_append, acts_one, if_pos rfl] at e
    have := congrArg List.length e
    simp at this
  · rw [htr, actsOf_append, acts_one, if_pos rfl] at e
    have := List.append_cancel_left e
    cases this
    exact hne (slow_apart n h1 hp)

/-- The request of this execution waits for 0.9 s, and `C106_in_time` says that it is answered in time. -/
example : (slow 3).clients[0]? = some { call := getCall .boot, prog := (getCall .boot).prog ventServed.cv } ∧
    (slow 16).sh.world.clock - (slow 3).sh.world.clock = 900000007 ∧
    InTime (slow 3).sh.world.clock (slow 17).sh.world.clock ∧ ∃ r, Answered (slow 17) 0 .getBoot r := by
  refine ⟨rfl, by decide +kernel, ?_, ⟨_, rfl⟩⟩
  refine C106_in_time (δ := 10) (n := 16) (id := .boot) (i := 0) (fun e s => by
    simp only [ventServed, vent, ventLine]
    split <;> simp) (fun _ h => h) slow_run
    slow_prompt slow_queued (by omega) rfl ?_ (by decide +kernel) ?_
  · intro c hc ht
    have : (slow 3).clients.all (fun c => c.call = .getBoot) = true := by decide +kernel
    rw [of_decide_eq_true (List.all_eq_true.1 this c hc)] at ht
    exact absurd ht not_false
  · intro r h
    unfold Answered at h
    have : (slow 16).clients[0]?.any (isReading .boot) = true := by decide +kernel
    rw [h] at this
    cases this

end Comfo.Props
