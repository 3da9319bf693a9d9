import Verif.Spec.Takes
import Verif.Props.Prompt
import Verif.Lemmas.Budget
/-!
Helper lemmas for C107.
-/
namespace Comfo.Pace
open Spec Props

variable {S : Setup σ} {w : World σ} {f : Nat → Sys σ}

/-! ## What the worker does not do -/

theorem off_updates {l : Lock} {b : Bool} {Q : Unit → Unit → Prop} (hl : takes l b (.lock .pm) = false)
    (hi : ∀ id, takes l b (.lock (.cache id)) = false) (ids : List CacheId) (hQ : Q () ()) :
    (Props.updates ids).Ok (Off l b) Q () := by
  induction ids with
  | nil => exact hQ
  | cons id ids ih => exact ok_bind (off_update hl _ (hi _) _ ih)

/-- The worker takes the lines and the locks of the caches only. -/
theorem worker_poised {s : Sys σ} (h : Reachable S (Sys.initial w) s) {l : Lock} {b : Bool}
    (hl : l = .fan ∨ l = .temp ∨ l = .am) : ¬ Poised s .worker (taking l b) := by
  rintro ⟨p, hn⟩
  have h1 : takes l b (.lock .pm) = false := by rcases hl with rfl | rfl | rfl <;> cases b <;> rfl
  have h2 : ∀ id, takes l b (.lock (.cache id)) = false := by
    intro id; rcases hl with rfl | rfl | rfl <;> cases b <;> rfl
  obtain ⟨g, hi⟩ := inv1 h
  have hok : s.worker.Ok (Off l b) (fun _ _ => True) () := by
    rcases hi.hist.job with ⟨e, -⟩ | ⟨k, pre, mid, -, hp, -⟩ | ⟨i, t, pre, mid, -, hp, -⟩
    · rw [e]; trivial
    · exact path_ok (g := ()) (fun _ _ => trivial) hp (by
        cases k <;> exact ok_bind (off_update h1 _ (h2 _) _ (off_update h1 _ (h2 _) _ trivial)))
    · refine path_ok (g := ()) (fun _ _ => trivial) hp ?_
      rw [Props.flushCaches_eq]
      split
      · exact ok_bind (off_updates h1 h2 _ fun _ => ⟨rfl, trivial⟩)
      · exact fun _ => ⟨rfl, trivial⟩
  have : takes l b (taking l b) = false := (ok_next hok hn trivial).1
  rw [show takes l b (taking l b) = true from takes_iff.2 rfl] at this
  cases this

theorem worker_held {s : Sys σ} (h : Reachable S (Sys.initial w) s) {l : Lock} {b : Bool}
    (hl : l = .fan ∨ l = .temp ∨ l = .am) : ⟨l, b, .worker⟩ ∉ s.sh.held := by
  intro hm
  obtain ⟨pre, post, h1, -⟩ := held_trace h _ hm
  obtain ⟨s₁, sh', hr, -, hp, -⟩ := moment h h1 (by cases b <;> rfl)
  exact worker_poised hr hl hp

theorem taking_free {s : Sys σ} (hr : Reachable S (Sys.initial w) s) {t : Tid} {l : Lock} {x b : Bool}
    (hp : Poised s t (taking l x)) : ⟨l, b, t⟩ ∉ s.sh.held := by
  intro hm
  obtain ⟨g, hi⟩ := inv1 hr
  have hG : Glob1 g s.sh := hi.glob
  have hm' := (hG.held_iff _ _ _).2 hm
  have hfree : (g t).Free l := by
    cases t with
    | client i =>
      obtain ⟨c, p, hc, hn⟩ := hp
      have := (ok_next (hi.client i c hc).1 hn (by cases x <;> trivial)).1
      cases x with
      | true => exact this.2
      | false => exact this.2.1
    | worker =>
      obtain ⟨p, hn⟩ := hp
      have := (ok_next hi.worker hn (by cases x <;> trivial)).1
      cases x with
      | true => exact this.2
      | false => exact this.2.1
  exact absurd (hfree _ hm') (Nat.lt_irrefl _)

/-! ## Waiting -/

/-- Nobody waits for the lock of the library. -/
theorem wait_am (hS : ∀ c, S.calls c → OnServer c) (hf : Execution S w f) {δ : Nat}
    (hp : Prompt S.line f δ) (hq : Queued f) {i m n : Nat} (hmn : m ≤ n)
    (ht : Poised (f m) (.client i) (.lock .am)) (hid : Still f (.client i) m n) :
    (f (n + 1)).sh.world.clock ≤ (f m).sh.world.clock + (δ : Nat) := by
  have none : ∀ k, m ≤ k → k ≤ n → ∀ u b, u ≠ .client i →
      ¬ (Poised (f k) u (taking .am b) ∨ ⟨.am, b, u⟩ ∈ (f k).sh.held) := by
    intro k h1 h2 u b hu h
    cases u with
    | worker =>
      rcases h with h | h
      · exact worker_poised (run_reach hf k) (.inr (.inr rfl)) h
      · exact worker_held (run_reach hf k) (.inr (.inr rfl)) h
    | client j =>
      have e1 := at_lib hS (run_reach hf k) h
      have e2 := at_lib (b := true) hS (run_reach hf k)
        (.inl (poised_idle hf h1 (idle_part hf hid h1 h2).1 ht))
      obtain ⟨g, hi⟩ := inv1 (run_reach hf k)
      have hG : Glob1 g (f k).sh := hi.glob
      have := hG.excl _ e1 _ e2 rfl rfl
      cases this
      exact hu rfl
  have free : ∀ k b, m ≤ k → k ≤ n → ⟨.am, b, .client i⟩ ∉ (f k).sh.held := fun k b h1 h2 =>
    lock_free (run_reach hf k) (poised_idle hf h1 (idle_part hf hid h1 h2).1 ht)
  have := wait_lock hf hp hq ht hid (fun _ => 0) (fun u b c d c1 c2 c3 hh => by
      exfalso
      have hc := hh c (Nat.le_refl _) c2
      by_cases e : u = .client i
      · subst e; exact free c b c1 (Nat.le_trans c2 c3) hc
      · exact none c c1 (Nat.le_trans c2 c3) u b e (.inr hc)) [] m (Nat.le_refl _) hmn
    (fun u hu ⟨b, h⟩ => absurd (h.symm.imp (fun h => h.1) id) (none m (Nat.le_refl _) hmn u b hu)) free
  simpa using this

theorem client_stays (hf : Execution S w f) {j m : Nat} {x : Client} (hx : (f m).clients[j]? = some x) (k : Nat)
    (hk : m ≤ k) : ∃ y, (f k).clients[j]? = some y ∧ y.call = x.call := by
  induction hk with
  | refl => exact ⟨x, hx, rfl⟩
  | @step k _ ih =>
    obtain ⟨y, h1, h2⟩ := ih
    obtain ⟨z, h3, h4⟩ := call_stays (hf.next k) h1
    exact ⟨z, h3, h4.trans h2⟩

/-- Whoever is at a cache has not got its answer yet. -/
theorem at_cache_reading (hL : S.line.NoPanic) {s : Sys σ} (hr : Reachable S (Sys.initial w) s) {id : CacheId}
    {j : Nat} {x : Client} (hx : AtCache s id (.client j)) (hj : s.clients[j]? = some x)
    (hg : x.call = getCall id) : isReading id x = true := by
  have hr : ∀ v, x.prog ≠ .ret v := by
    intro v e
    obtain ⟨b, ⟨x', q, h1, h2⟩ | hh⟩ := hx
    · rw [hj] at h1; cases h1; rw [e] at h2; cases h2
    · rcases holder hL hr (.inr ⟨id, rfl⟩) hh with ⟨y, ⟨x', q, h1, hn⟩, -⟩ |
        ⟨⟨x', q, h1, hn⟩, -⟩ <;> rw [hj] at h1 <;> cases h1 <;> rw [e] at hn <;> cases hn
  unfold isReading
  split
  · rename_i v e; exact absurd e (hr v)
  · simpa using hg

/-- Who refreshes a cache waits for its lock while at most one other goroutine refreshes the cache. -/
theorem wait_cache (hL : S.line.NoPanic) (hS : ∀ c, S.calls c → OnServer c) (hf : Execution S w f) {δ : Nat}
    (hp : Prompt S.line f δ) (hq : Queued f) {t : Tid} {id : CacheId} {x : Bool} {m n r : Nat} (hmn : m ≤ n)
    (hg' : ∀ i c, t = .client i → (f m).clients[i]? = some c → c.call ≠ getCall id)
    (ht : Poised (f m) t (taking (.cache id) x)) (hid : Still f t m n) (hr : readers (f m) id ≤ r) :
    (f (n + 1)).sh.world.clock ≤ (f m).sh.world.clock +
      ((refreshers id - 1) * (2000000000 + 17 * δ) + δ + 3 * r * δ : Nat) := by
  classical
  let ws := (tids (f m)).filter fun u => decide (u ≠ t ∧ AtCache (f m) id u)
  let get : Tid → Prop := fun u => ∃ j x, u = .client j ∧ (f m).clients[j]? = some x ∧ x.call = getCall id
  let cost : Tid → Nat := fun u => if get u then 2 * δ else 2000000000 + 16 * δ
  have hnd : ws.Nodup := (tids_nodup _).filter _
  have hat : ∀ u ∈ ws, u ≠ t ∧ AtCache (f m) id u := by
    intro u hu
    simpa using (List.mem_filter.1 hu).2
  have hR : (ws.filter fun u => !decide (get u)).length ≤ refreshers id - 1 := by
    have := C106_refreshers hS (run_reach hf m) (id := id)
      (ts := t :: ws.filter fun u => !decide (get u))
      (List.nodup_cons.2 ⟨fun h => (hat _ (List.mem_filter.1 h).1).1 rfl, hnd.filter _⟩) (by
        intro u h
        rcases List.mem_cons.1 h with rfl | h
        · exact ⟨⟨x, .inl ht⟩, hg'⟩
        · obtain ⟨h1, h2⟩ := List.mem_filter.1 h
          refine ⟨(hat u h1).2, fun j c e e2 e3 => ?_⟩
          have : ¬ get u := by simpa using h2
          exact this ⟨j, c, e, e2, e3⟩)
    rw [List.length_cons] at this
    omega
  have hG : (ws.filter fun u => decide (get u)).length ≤ r := by
    refine Nat.le_trans (readers_le (s := f m) (id := id) (hnd.filter _) ?_) hr
    intro t h
    obtain ⟨h1, h2⟩ := List.mem_filter.1 h
    obtain ⟨j, x, rfl, e1, e2⟩ : get t := by simpa using h2
    exact ⟨j, x, rfl, e1, at_cache_reading hL (run_reach hf m) (hat _ h1).2 e1 e2⟩
  have hsum : (ws.map fun u => cost u + δ).sum ≤ (refreshers id - 1) * (2000000000 + 17 * δ) + r * (3 * δ) := by
    have split : ∀ l : List Tid, (l.map fun u => cost u + δ).sum =
        (l.filter fun u => !decide (get u)).length * (2000000000 + 17 * δ) +
          (l.filter fun u => decide (get u)).length * (3 * δ) := by
      intro l
      induction l with
      | nil => simp
      | cons u l ih =>
        rw [List.map_cons, List.sum_cons, ih, List.filter_cons, List.filter_cons]
        by_cases hg : get u
        · simp only [cost, hg, if_true, decide_true, Bool.not_true, Bool.false_eq_true, if_false,
            List.length_cons, Nat.add_mul]
          omega
        · simp only [cost, hg, decide_false, Bool.not_false, Bool.false_eq_true, if_false, if_true,
            List.length_cons, Nat.add_mul]
          omega
    rw [split]
    have h1 := Nat.mul_le_mul_right (2000000000 + 17 * δ) hR
    have h2 := Nat.mul_le_mul_right (3 * δ) hG
    omega
  have hwait := wait_taking hf hp ht hid
    (fun d d1 d2 u b hb hu htr => hq _ x _ m d d1 ht (idle_part hf hid d1 d2).1 u b hb hu htr) cost
    (fun u b c e c1 c2 c3 hh => by
      by_cases hg : get u
      · simp only [cost, hg, if_true]
        obtain ⟨j, x, rfl, e1, e2⟩ := hg
        refine get_hold hL hf hp c2 (fun k hk => ?_) hh
        obtain ⟨y, y1, y2⟩ := client_stays hf e1 k (Nat.le_trans c1 hk)
        exact ⟨y, y1, y2.trans e2⟩
      · simp only [cost, hg, if_false]
        exact hold_cache_less hL hS hf hp hq c1 c2 hh fun k k1 k2 => ⟨t, x, ⟨⟨x, .inl ht⟩, hg'⟩, ht,
          (idle_part hf hid (Nat.le_trans c1 k1) (Nat.le_trans k2 c3)).1⟩) ws m (Nat.le_refl _) hmn
    (by
      rintro u hu ⟨b, -, h⟩
      have hal : AtCache (f m) id u := ⟨b, h.symm.imp (fun h => h.1) _root_.id⟩
      refine List.mem_filter.2 ⟨tids_mem (run_reach hf m) ?_, by simpa using ⟨hu, hal⟩⟩
      exact h.symm.imp (fun h => ⟨_, h.1⟩) (fun h => ⟨_, _, h⟩))
    (fun k b h1 h2 => taking_free (run_reach hf k) (poised_idle hf h1 (idle_part hf hid h1 h2).1 ht))
  have : r * (3 * δ) = 3 * r * δ := by rw [← Nat.mul_assoc, Nat.mul_comm r 3]
  omega

/-- The same for a request that changes a setting. -/
theorem wait_cache_set (hL : S.line.NoPanic) (hS : ∀ c, S.calls c → OnServer c) (hf : Execution S w f) {δ : Nat}
    (hp : Prompt S.line f δ) (hq : Queued f) {i : Nat} {id : CacheId} {x : Bool} {c : Client} {m n r : Nat}
    (hmn : m ≤ n) (hc : (f m).clients[i]? = some c) (hg : c.call ≠ getCall id)
    (ht : Poised (f m) (.client i) (taking (.cache id) x)) (hid : Still f (.client i) m n)
    (hr : readers (f m) id ≤ r) :
    (f (n + 1)).sh.world.clock ≤ (f m).sh.world.clock + (2000000000 + 18 * δ + 3 * r * δ : Nat) := by
  have h := wait_cache hL hS hf hp hq hmn (fun j d e h => by
    cases e
    rw [hc] at h; cases h
    exact hg) ht hid hr
  have h2 : refreshers id - 1 ≤ 1 := by cases id <;> decide
  have := Nat.mul_le_mul_right (2000000000 + 17 * δ) h2
  omega

/-! ## What a request costs -/

/-- The cost of a request that changes a setting. -/
def total (V W X δ : Nat) : Call → Nat
  | .setComfort _ => W + 2 * V + X + 2000000000 + 17 * δ
  | .setSpeed _ _ => 2 * W + 10 * W + 12 * V + X + 17000000000 + 139 * δ
  | .setProfile _ _ => W + 3 * V + X + 3000000000 + 23 * δ
  | _ => 0

theorem rc_call {V W X δ : Nat} (cv : FloatConv) {c : Call} {l : Lock} (h : outer c = some l) :
    (c.prog cv).Ok (RC V (fun _ => W) X δ) (fun _ _ => True) (total V W X δ c) := by
  cases c with
  | setComfort v => exact ok_map (ok_mono rc_setComfortTemp fun _ _ _ => trivial)
  | setSpeed a r => exact ok_map (ok_mono rc_setFanSpeed fun _ _ _ => trivial)
  | setProfile m t => exact ok_map (ok_mono rc_setFanProfileRpc fun _ _ _ => trivial)
  | _ => cases h

theorem total_le {δ r : Nat} {c : Call} {l : Lock} (h : outer c = some l) :
    total (2000000000 + 11 * δ) (2000000000 + 18 * δ + 3 * r * δ) 0 δ c + δ ≤ busy δ r c := by
  have : 36 * r * δ = 12 * (3 * r * δ) := by rw [← Nat.mul_assoc, ← Nat.mul_assoc]
  cases c with
  | setComfort v => simp only [total, busy, Nat.add_mul]; omega
  | setSpeed a r => simp only [total, busy, Nat.add_mul]; omega
  | setProfile m t => simp only [total, busy, Nat.add_mul]; omega
  | _ => cases h

theorem total_add {V W X δ : Nat} {c : Call} {l : Lock} (h : outer c = some l) :
    total V W X δ c = total V W 0 δ c + X := by
  cases c with
  | setComfort v => simp only [total]; omega
  | setSpeed a r => simp only [total]; omega
  | setProfile m t => simp only [total]; omega
  | _ => cases h

theorem path_total {s : Sys σ} (h : Reachable S (Sys.initial w) s) {i : Nat} {c : Client} {l : Lock}
    {V W X δ : Nat} (hc : s.clients[i]? = some c) (ho : outer c.call = some l) :
    ∃ g, c.prog.Ok (RC V (fun _ => W) X δ) (fun _ _ => True) g ∧
      ((actsOf (.client i) s.sh.trace).map (price V (fun _ => W) X δ)).sum + g = total V W X δ c.call := by
  obtain ⟨g, hi⟩ := inv1 h
  obtain ⟨h1, h2⟩ := rc_path (hi.hist.path i c hc).1 (rc_call (V := V) (W := W) (X := X) (δ := δ) S.cv ho)
  exact ⟨_, h1, by omega⟩

/-- The total of what has been done and what is to be done next. -/
theorem next_total {s : Sys σ} (h : Reachable S (Sys.initial w) s) {i : Nat} {c : Client} {l : Lock}
    {V W X δ : Nat} (hc : s.clients[i]? = some c) (ho : outer c.call = some l) {y : Act}
    (hy : Poised s (.client i) y) :
    ((actsOf (.client i) s.sh.trace ++ [y]).map (price V (fun _ => W) X δ)).sum ≤ total V W X δ c.call := by
  obtain ⟨g, h1, h2⟩ := path_total (V := V) (W := W) (X := X) (δ := δ) h hc ho
  obtain ⟨c', p, hc', hn⟩ := hy
  rw [hc] at hc'; cases hc'
  have := price_le (ok_next h1 hn trivial).1
  rw [List.map_append, List.sum_append]
  simp only [List.map_cons, List.map_nil, List.sum_cons, List.sum_nil]
  omega

/-- How long a request that changes a setting takes for its next action. -/
theorem set_step (hL : S.line.NoPanic) (hS : ∀ c, S.calls c → OnServer c) (hf : Execution S w f) {δ : Nat}
    (hp : Prompt S.line f δ) (hq : Queued f) {i : Nat} {x : Client} {l : Lock} {m n r X : Nat}
    (hx : (f m).clients[i]? = some x) (ho : outer x.call = some l)
    (hr : ∀ k id, m ≤ k → k ≤ n → readers (f k) id ≤ r)
    (hX : ∀ c d, m ≤ c → c ≤ d → d ≤ n → Poised (f c) (.client i) (.lock l) → Still f (.client i) c d →
      (f (d + 1)).sh.world.clock ≤ (f c).sh.world.clock + (X : Nat))
    {c d : Nat} {y : Act} (h1 : m ≤ c) (h2 : c ≤ d) (h3 : d ≤ n) (hid : Still f (.client i) c d)
    (hy : Poised (f c) (.client i) y) :
    (f (d + 1)).sh.world.clock ≤ (f c).sh.world.clock +
      (price (2000000000 + 11 * δ) (fun _ => 2000000000 + 18 * δ + 3 * r * δ) X δ y : Nat) := by
  obtain ⟨z, hz, hzc⟩ := client_stays hf hx c h1
  have hzo : outer z.call = some l := hzc ▸ ho
  have noget : ∀ id, z.call ≠ getCall id := by
    intro id e
    rw [e] at hzo
    cases id <;> cases hzo
  have mine : ∀ {b}, (taking .fan b = y ∨ taking .temp b = y) → y = taking l b := by
    rintro b (rfl | rfl)
    · obtain ⟨z', e1, e2⟩ := at_outer hS (run_reach hf c) (.inl rfl) (.inl hy)
      rw [hz] at e1; cases e1
      rw [hzo] at e2; cases e2; rfl
    · obtain ⟨z', e1, e2⟩ := at_outer hS (run_reach hf c) (.inr rfl) (.inl hy)
      rw [hz] at e1; cases e1
      rw [hzo] at e2; cases e2; rfl
  have noshare : ∀ l', y = .rlock l' → ∃ id, l' = .cache id := by
    rintro l' rfl
    obtain ⟨g, hi⟩ := inv1 (run_reach hf c)
    obtain ⟨g9, ok9, -, -⟩ := link9_client hS hi hz
    obtain ⟨z', p, e1, hn⟩ := hy
    rw [hz] at e1; cases e1
    have m9 := (ok_next ok9 hn trivial).1
    have m1 := (ok_next (hi.client i z hz).1 hn trivial).1
    cases l' with
    | cache id => exact ⟨id, rfl⟩
    | pm => exact absurd rfl m1.2.2
    | am => exact absurd m9 not_false
    | fan => exact absurd m9 not_false
    | temp => exact absurd m9 not_false
  by_cases hlock : (∃ l', y = .lock l') ∨ ∃ l', y = .rlock l'
  · rcases hlock with ⟨l', rfl⟩ | ⟨l', rfl⟩
    · cases l' with
      | pm => exact wait_line hL hS hf hp hq h2 hy hid
      | cache id =>
        exact wait_cache_set (x := true) hL hS hf hp hq h2 hz (noget id) hy hid (hr c id h1 (Nat.le_trans h2 h3))
      | am => exact wait_am hS hf hp hq h2 hy hid
      | fan =>
        have e : Act.lock .fan = .lock l := mine (b := true) (.inl rfl)
        cases e
        exact hX c d h1 h2 h3 hy hid
      | temp =>
        have e : Act.lock .temp = .lock l := mine (b := true) (.inr rfl)
        cases e
        exact hX c d h1 h2 h3 hy hid
    · obtain ⟨id, rfl⟩ := noshare _ rfl
      exact wait_cache_set (x := false) hL hS hf hp hq h2 hz (noget id) hy hid (hr c id h1 (Nat.le_trans h2 h3))
  · have hpr : ∀ V W, price V W X δ y = lasting δ y := by
      intro V W
      cases y <;> first | rfl | exact absurd (.inl ⟨_, rfl⟩) hlock | exact absurd (.inr ⟨_, rfl⟩) hlock
    rw [hpr]
    refine hp (.client i) c d h2 (fun k k1 k2 => ?_) hid y hy
    have hyk := poised_idle hf k1 (idle_part hf hid k1 k2).1 hy
    obtain ⟨z, hz, hzc⟩ := client_stays hf hx k (Nat.le_trans h1 k1)
    have hzo : outer z.call = some l := hzc ▸ ho
    obtain ⟨g, hi⟩ := inv1 (run_reach hf k)
    obtain ⟨gc, okc, -⟩ := path_total (V := 0) (W := 0) (X := 0) (δ := 0) (run_reach hf k) hz hzo
    obtain ⟨z', p, e1, hn⟩ := hyk
    rw [hz] at e1; cases e1
    have noflush := (ok_next okc hn trivial).1
    have noanswer : ∀ b, y ≠ .sendFlushed b := by
      rintro b rfl
      obtain ⟨-, -, v, hv, -⟩ := (ok_next (hi.client i z hz).1 hn trivial).1
      rw [(hi.glob : Glob1 g _).clientOwes] at hv
      cases hv
    have hhead := head_of_ok hL hi.glob (hi.client i z hz).1
    have hpo : ∀ {a q}, z.prog.Next a q → Poised (f k) (.client i) a := fun h => ⟨z, _, hz, h⟩
    revert hhead hn hpo
    generalize z.prog = P
    intro hn hhead hpo
    cases hhead with
    | ret => cases hn
    | lock => cases hn; exact absurd (.inl ⟨_, rfl⟩) hlock
    | rlock => cases hn; exact absurd (.inr ⟨_, rfl⟩) hlock
    | sendFlush => cases hn; exact absurd noflush not_false
    | recvFlushed => cases hn; exact absurd noflush not_false
    | sendFlushed => cases hn; exact absurd rfl (noanswer _)
    | other ha hn' _ _ =>
      obtain ⟨s', h3, h4⟩ := canAct (hpo hn') ha
      exact ⟨s', h3, _, by rw [h4, acts_trace ha]⟩

/-- How long a request holds its outer lock. -/
theorem hold_outer (hL : S.line.NoPanic) (hS : ∀ c, S.calls c → OnServer c) (hf : Execution S w f) {δ : Nat}
    (hp : Prompt S.line f δ) (hq : Queued f) {i : Nat} {x : Client} {l : Lock} {b : Bool} {c d r : Nat}
    (hcd : c ≤ d) (hx : (f c).clients[i]? = some x) (ho : outer x.call = some l)
    (hr : ∀ k id, c ≤ k → k ≤ d → readers (f k) id ≤ r)
    (hh : ∀ k, c ≤ k → k ≤ d → ⟨l, b, .client i⟩ ∈ (f k).sh.held) :
    (f (d + 1)).sh.world.clock ≤ (f c).sh.world.clock +
      (total (2000000000 + 11 * δ) (2000000000 + 18 * δ + 3 * r * δ) 0 δ x.call : Nat) := by
  have go : ∀ k, c ≤ k → k ≤ d → ∃ y, Poised (f k) (.client i) y := by
    intro k h1 h2
    obtain ⟨g, hi⟩ := inv1 (run_reach hf k)
    have hG : Glob1 g (f k).sh := hi.glob
    have hm := (hG.held_iff _ _ _).2 (hh k h1 h2)
    rcases holder_head hL hi (t := .client i) (List.ne_nil_of_mem hm) with ⟨a, -, h, -⟩ | ⟨l', -, h | h⟩
    · exact ⟨_, h⟩
    · exact ⟨_, h⟩
    · exact ⟨_, h⟩
  obtain ⟨as, y, h1, h2, h3⟩ := chain hf hcd _ (price_kind _ _ _ _) go
    (fun k n y k1 k2 k3 hi hy => set_step (X := 0) hL hS hf hp hq hx ho hr
      (fun c' d' c1 c2 c3 hl _ => absurd (hh c' c1 (Nat.le_trans c2 c3)) (lock_free (run_reach hf c') hl))
      k1 k2 k3 hi hy)
  obtain ⟨z, hz, hzc⟩ := client_stays hf hx d hcd
  have := next_total (V := 2000000000 + 11 * δ) (W := 2000000000 + 18 * δ + 3 * r * δ) (X := 0) (δ := δ)
    (run_reach hf d) hz (hzc ▸ ho) h2
  rw [h1, List.append_assoc, List.map_append, List.sum_append, hzc] at this
  omega

/-! ## Sums -/

theorem sum_le {α : Type} [DecidableEq α] (g : α → Nat) : ∀ {ts us : List α}, ts.Nodup → (∀ t ∈ ts, t ∈ us) →
    (ts.map g).sum ≤ (us.map g).sum := by
  intro ts
  induction ts with
  | nil => intro us _ _; simp
  | cons t ts ih =>
    intro us hn hm
    obtain ⟨h1, h2⟩ := List.nodup_cons.1 hn
    have ht := hm t List.mem_cons_self
    have := ih (us := us.erase t) h2 fun x hx =>
      (List.mem_erase_of_ne fun (e : x = t) => h1 (e ▸ hx)).2 (hm x (List.mem_cons_of_mem _ hx))
    rw [((List.perm_cons_erase ht).map g).sum_nat]
    simp only [List.map_cons, List.sum_cons]
    omega

theorem sum_idx {α : Type} (p : α → Bool) (g : α → Nat) (G : Nat → Nat) (l : List α)
    (hG : ∀ j x, l[j]? = some x → G j = g x) :
    (((List.range l.length).filter fun j => (l[j]?).any p).map G).sum = ((l.filter p).map g).sum := by
  induction l generalizing G with
  | nil => rfl
  | cons x l ih =>
    have := ih (fun j => G (j + 1)) fun j y h => hG (j + 1) y (by simpa using h)
    rw [List.length_cons, List.range_succ_eq_map, List.filter_cons, List.filter_map, List.filter_cons]
    have e : ((fun j => ((x :: l)[j]?).any p) ∘ Nat.succ) = fun j => (l[j]?).any p := by
      funext j; simp
    rw [e]
    have h0 := hG 0 x rfl
    simp only [List.getElem?_cons_zero, Option.any_some]
    have e2 : ∀ ys : List Nat, ((ys.map Nat.succ).map G).sum = (ys.map fun j => G (j + 1)).sum := by
      intro ys; rw [List.map_map]; rfl
    split
    · rw [List.map_cons, List.sum_cons, List.map_cons, List.sum_cons, e2, this, h0]
    · rw [e2, this]

theorem single_le {α : Type} {g : α → Nat} {a : α} {l : List α} (h : a ∈ l) : g a ≤ (l.map g).sum := by
  induction l with
  | nil => cases h
  | cons b l ih =>
    rw [List.map_cons, List.sum_cons]
    rcases List.mem_cons.1 h with rfl | h
    · omega
    · have := ih h; omega

theorem only_le {α : Type} {p : α → Bool} {g : α → Nat} {l : List α} {i : Nat} {a : α} (ha : l[i]? = some a)
    (h : ∀ (j : Nat) b, l[j]? = some b → p b = true → j = i) : ((l.filter p).map g).sum ≤ g a := by
  induction l generalizing i with
  | nil => cases ha
  | cons b l ih =>
    have none : ∀ (l : List α), (∀ (j : Nat) c, l[j]? = some c → p c = true → False) → l.filter p = [] := by
      intro l h
      refine List.filter_eq_nil_iff.2 fun c hc hp => ?_
      obtain ⟨j, hj⟩ := List.getElem?_of_mem hc
      exact h j c hj hp
    cases i with
    | zero =>
      cases ha
      rw [List.filter_cons, none l fun j c hj hc => by cases h (j + 1) c (by simpa using hj) hc]
      split <;> simp
    | succ i =>
      rw [List.filter_cons, if_neg fun hb => by cases h 0 b rfl hb]
      exact ih (by simpa using ha) fun j c hj hc => by
        have := h (j + 1) c (by simpa using hj) hc
        omega

end Comfo.Pace
