import Verif.Lemmas.PaceHold
import Verif.Lemmas.Refresh
/-!
Helper lemmas for C106, C107 and C108: who waits for the lock of a cache does not use the line meanwhile, so
that whoever has it waits for one other goroutine only.
-/
namespace Comfo.Pace
open Spec Props

variable {S : Setup σ} {w : World σ} {f : Nat → Sys σ}

/-- The cache worker, or a request that changes a setting and has its outer lock. -/
def Major (s : Sys σ) : Tid → Prop
  | .worker => True
  | .client i => ∃ c l, s.clients[i]? = some c ∧ outer c.call = some l ∧ ⟨l, true, .client i⟩ ∈ s.sh.held

theorem major_line (hS : ∀ c, S.calls c → OnServer c) {s : Sys σ} (h : Reachable S (Sys.initial w) s) {t : Tid}
    (ha : AtLine s t) : Major s t := by
  cases t with
  | worker => trivial
  | client i => exact at_line hS h ha

theorem major_refreshing (hS : ∀ c, S.calls c → OnServer c) {s : Sys σ} (h : Reachable S (Sys.initial w) s)
    {t : Tid} {id : CacheId} (ha : Refreshing s id t) : Major s t := by
  cases t with
  | worker => trivial
  | client i =>
    obtain ⟨a1, a2⟩ := ha
    obtain ⟨c, e1, e2⟩ := at_cache hS h a1
    obtain ⟨-, l, e3, e4⟩ := e2.resolve_left (a2 i c rfl e1)
    exact ⟨c, l, e1, e3, e4⟩

theorem major_three {s : Sys σ} (h : Reachable S (Sys.initial w) s) {ts : List Tid} (hn : ts.Nodup)
    (ha : ∀ t ∈ ts, Major s t) : ts.length ≤ 3 := by
  let label : Tid → Option Lock := fun
    | .worker => none
    | .client i => (s.clients[i]?).bind fun c => outer c.call
  have hc : ∀ i, Major s (.client i) → label (.client i) = some .fan ∨ label (.client i) = some .temp := by
    rintro i ⟨c, l, h1, h2, -⟩
    simp only [label, h1, Option.bind_some, h2]
    match hcc : c.call with
    | .setSpeed _ _ => rw [hcc] at h2; exact .inl h2.symm
    | .setProfile _ _ => rw [hcc] at h2; exact .inl h2.symm
    | .setComfort _ => rw [hcc] at h2; exact .inr h2.symm
    | .getBoot | .getBypass | .getErrors | .getFans | .getProfiles | .getTemps | .flush _
    | .libQuery _ | .libGet _ | .libSetComfort _ | .libSetSpeed _ | .libSetProfile _ _
    | .libSetProfiles _ => rw [hcc] at h2; cases h2
  have hinj : (ts.map label).Nodup := by
    rw [List.Nodup, List.pairwise_map]
    refine List.Pairwise.imp_of_mem ?_ hn
    intro a b ma mb hab he
    apply hab
    cases a with
    | worker =>
      cases b with
      | worker => rfl
      | client j => rcases hc j (ha _ mb) with h' | h' <;> rw [h'] at he <;> cases he
    | client i =>
      cases b with
      | worker => rcases hc i (ha _ ma) with h' | h' <;> rw [h'] at he <;> cases he
      | client j =>
        obtain ⟨c, l, h1, h2, h3⟩ := ha _ ma
        obtain ⟨c', l', h1', h2', h3'⟩ := ha _ mb
        simp only [label, h1, h1', Option.bind_some, h2, h2'] at he
        cases he
        obtain ⟨g, hinv⟩ := inv1 h
        have hG : Glob1 g s.sh := hinv.glob
        have := hG.excl _ h3 _ h3' rfl rfl
        cases this
        rfl
  have := nodup_le (l₂ := [none, some Lock.fan, some Lock.temp]) hinj (by
    intro x hx
    obtain ⟨t, ht, rfl⟩ := List.mem_map.1 hx
    cases t with
    | worker => simp [label]
    | client i => rcases hc i (ha _ ht) with h' | h' <;> rw [h'] <;> simp)
  simpa using this

/-- Who is about to take the lock of a cache does not use the line. -/
theorem not_at_line {s : Sys σ} (h : Reachable S (Sys.initial w) s) {t : Tid} {id : CacheId} {b : Bool}
    (hp : Poised s t (taking (.cache id) b)) : ¬ AtLine s t := by
  rintro (h' | hm)
  · have := kind_lock (poised_kind h' hp)
    cases b <;> cases this
  · obtain ⟨g, hi⟩ := inv1 h
    have hG : Glob1 g s.sh := hi.glob
    have hm' := (hG.held_iff _ _ _).2 hm
    have hfree : (g t).Free (.cache id) := by
      cases t with
      | client i =>
        obtain ⟨c, p, hc, hn⟩ := hp
        have := (ok_next (hi.client i c hc).1 hn (by cases b <;> trivial)).1
        cases b
        · exact this.2.1
        · exact this.2
      | worker =>
        obtain ⟨p, hn⟩ := hp
        have := (ok_next hi.worker hn (by cases b <;> trivial)).1
        cases b
        · exact this.2.1
        · exact this.2
    exact absurd (hfree _ hm') (by simp [Lock.rank])

/-- While somebody waits for the lock of a cache, waiting for the line takes a second at the most. -/
theorem wait_line_less (hL : S.line.NoPanic) (hS : ∀ c, S.calls c → OnServer c) (hf : Execution S w f) {δ : Nat}
    (hp : Prompt S.line f δ) (hq : Queued f) {t v : Tid} {id : CacheId} {b : Bool} {m n : Nat} (hmn : m ≤ n)
    (ht : Poised (f m) t (.lock .pm)) (hid : Still f t m n) (hv : Refreshing (f m) id v)
    (hvp : Poised (f m) v (taking (.cache id) b)) :
    (f (n + 1)).sh.world.clock ≤ (f m).sh.world.clock + (1000000000 + 6 * δ : Nat) := by
  have hr := run_reach hf m
  have hnv := not_at_line hr hvp
  have := wait_line_of (N := 1) hL hf hp hq hmn ht hid fun ws hnd hat => by
    have := major_three hr (ts := t :: v :: ws)
      (List.nodup_cons.2 ⟨fun h => by
        rcases List.mem_cons.1 h with rfl | h
        · exact hnv (.inl ht)
        · exact (hat t h).1 rfl, List.nodup_cons.2 ⟨fun h => hnv (hat v h).2, hnd⟩⟩) (by
        intro u hu
        rcases List.mem_cons.1 hu with rfl | hu
        · exact major_line hS hr (.inl ht)
        rcases List.mem_cons.1 hu with rfl | hu
        · exact major_refreshing hS hr hv
        · exact major_line hS hr (hat u hu).2)
    simpa using this
  omega

/-- The caches `t` uses while it does nothing. -/
theorem refreshing_still (hf : Execution S w f) {t : Tid} {id : CacheId} {b : Bool} {m k : Nat} (hmk : m ≤ k)
    (hv : Refreshing (f m) id t) (hp : Poised (f m) t (taking (.cache id) b)) (hs : Still f t m k) :
    Refreshing (f k) id t := by
  refine ⟨⟨b, .inl (poised_idle hf hmk hs hp)⟩, ?_⟩
  rintro i c rfl hc e
  obtain ⟨x, p, hx, -⟩ := hp
  have : ∃ y, (f k).clients[i]? = some y ∧ y.call = x.call := by
    clear hs hc e
    induction hmk with
    | refl => exact ⟨x, hx, rfl⟩
    | @step k _ ih =>
      obtain ⟨y, h1, h2⟩ := ih
      obtain ⟨z, h3, h4⟩ := call_stays (hf.next k) h1
      exact ⟨z, h3, h4.trans h2⟩
  obtain ⟨y, h1, h2⟩ := this
  rw [hc] at h1; cases h1
  exact hv.2 i x rfl hx (h2.symm.trans e)

/-- While somebody waits for the lock of a cache to refresh it, others have the lock for two seconds at the
most. -/
theorem hold_cache_less (hL : S.line.NoPanic) (hS : ∀ c, S.calls c → OnServer c) (hf : Execution S w f) {δ : Nat}
    (hp : Prompt S.line f δ) (hq : Queued f) {u : Tid} {id : CacheId} {m : Nat}
    {b : Bool} {c d : Nat} (hmc : m ≤ c) (hcd : c ≤ d)
    (hh : ∀ k, c ≤ k → k ≤ d → ⟨.cache id, b, u⟩ ∈ (f k).sh.held)
    (hv : ∀ k, c ≤ k → k ≤ d → ∃ v x, Refreshing (f m) id v ∧ Poised (f m) v (taking (.cache id) x) ∧
      Still f v m k) :
    (f (d + 1)).sh.world.clock ≤ (f c).sh.world.clock + (2000000000 + 16 * δ : Nat) := by
  have := hold_cache_of hL hf hp hcd hh (W := 1000000000 + 6 * δ) fun k n k1 k2 k3 hy hi => by
    obtain ⟨v, x, h1, h2, h3⟩ := hv n (Nat.le_trans k1 k2) k3
    have hmk := Nat.le_trans hmc k1
    have hs := (idle_part hf h3 hmk k2).1
    exact wait_line_less hL hS hf hp hq k2 hy hi (refreshing_still hf hmk h1 h2 hs) (poised_idle hf hmk hs h2)
  omega

/-! ## Sharing the lock of a cache -/

/-- What is done while the lock of a cache is shared. -/
def Glance (as : List Act) : Prop := ∃ id e, as = [.load id e]

theorem neutral_glance (id : CacheId) : Neutral (RB (.cache id) false Glance) none where
  plain a ha := by
    by_cases h : takes (.cache id) false a = true
    · rw [takes_iff.1 h] at ha; exact absurd ha not_false
    · exact ⟨trivial, post_none (by simpa using h)⟩
  query p Q hQ := okB_off (off_query rfl p hQ)
  upd i force Q hQ := okB_off (off_update rfl i rfl force hQ)
  proto i conv Q hQ := okB_off fun _ => ⟨rfl, fun c _ => ⟨rfl, fun _ => ⟨rfl, hQ _⟩⟩⟩
  peek i k Q hk := by
    by_cases e : i = id
    · subst e
      refine fun _ => ⟨trivial, ?_⟩
      rw [show (RB (.cache i) false Glance).post none (.rlock (.cache i)) = some [] by
        simp [RB, postB, takes]]
      refine fun c _ => ⟨⟨rfl, fun _ => ⟨_, _, rfl⟩⟩, ?_⟩
      show Prog.Ok (RB (.cache i) false Glance) Q _ (some [.load i c])
      have hg : gives (.cache i) false (.runlock (.cache i)) = true := gives_iff.2 rfl
      refine fun _ => ⟨⟨rfl, fun h => by rw [hg] at h; cases h⟩, ?_⟩
      rw [show (RB (.cache i) false Glance).post (some [.load i c]) (.runlock (.cache i)) = none by
        simp [RB, postB, hg, takes]]
      exact hk c
    · refine fun _ => ⟨trivial, ?_⟩
      rw [post_none (by simp [takes, e])]
      refine fun c _ => ⟨trivial, ?_⟩
      rw [post_none rfl]
      refine fun _ => ⟨trivial, ?_⟩
      rw [post_none rfl]
      exact hk c

/-- The lock of a cache is shared for a moment only. -/
theorem hold_shared (hL : S.line.NoPanic) (hf : Execution S w f) {δ : Nat} (hp : Prompt S.line f δ) {u : Tid}
    {id : CacheId} {c d : Nat} (hcd : c ≤ d)
    (hh : ∀ k, c ≤ k → k ≤ d → ⟨.cache id, false, u⟩ ∈ (f k).sh.held) :
    (f (d + 1)).sh.world.clock ≤ (f c).sh.world.clock + (2 * δ : Nat) := by
  -- what it does next is to look or to give the lock back
  have next : ∀ k, c ≤ k → k ≤ d → ∀ y, Poised (f k) u y → lasting δ y = δ ∧ y ≠ .lock .pm := by
    intro k h1 h2 y hy
    have := hold_sum (neutral_glance id) hf (Nat.le_refl k)
      (fun j j1 j2 => hh j (by omega) (by omega)) (fun a => if isPm a then 3 else if lasting 1 a = 1 then 1 else 3)
      (A := 1) (δ := 1)
      (by rintro z ⟨i, e, rfl⟩; exact Nat.le_refl _) (by exact Nat.le_refl _) (as := []) (by simp) hy
    simp only [List.nil_append, List.map_cons, List.map_nil, List.sum_cons, List.sum_nil] at this
    split at this
    · omega
    · rename_i hpm
      split at this
      · rename_i hl
        refine ⟨?_, by rintro rfl; exact hpm rfl⟩
        cases y <;> simp [lasting] at hl ⊢
        exact hl
      · omega
  have go : ∀ k, c ≤ k → k ≤ d → ∃ y, Poised (f k) u y ∧ ∃ s', Moves S.line u (f k) s' := by
    intro k h1 h2
    refine (holder hL (run_reach hf k) (.inr ⟨id, rfl⟩) (hh k h1 h2)).resolve_right fun h => ?_
    exact (next k h1 h2 _ h.1).2 rfl
  obtain ⟨as, y, h1, h2, h3⟩ := chain hf hcd (fun _ => δ) (fun _ _ _ => rfl)
    (fun k k1 k2 => (go k k1 k2).imp fun _ h => h.1)
    (fun k n y k1 k2 k3 hi hy => by
      have := hp u k n k2
        (fun j j1 j2 => (go j (Nat.le_trans k1 j1) (Nat.le_trans j2 k3)).choose_spec.2) hi y hy
      rwa [(next k k1 (Nat.le_trans k2 k3) y hy).1] at this)
  have := hold_sum (neutral_glance id) hf hcd hh (fun _ => δ) (A := δ) (δ := δ)
    (by rintro z ⟨i, e, rfl⟩; simp) (Nat.le_refl _) h1 h2
  omega

end Comfo.Pace
