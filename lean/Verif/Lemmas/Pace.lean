import Verif.Spec.Prompt
import Verif.Props.Turn
import Verif.Props.Hold
/-!
Helper lemmas for C106: what happens in one step of an execution, how much time a series of actions
takes, and how long one waits for a mutex.
-/
namespace Comfo.Pace
open Spec Props

/-! ## One step -/

/-- A step of an execution. -/
def Tock (S : Setup σ) (s s' : Sys σ) : Prop := Step S s s' ∨ s' = s

theorem acts_one (t u : Tid) (a : Act) : actsOf t [(u, a)] = if u = t then [a] else [] := by
  by_cases h : u = t <;> simp [actsOf, h]

/-- What a goroutine does in a step. -/
theorem step_acts {S : Setup σ} {s s' : Sys σ} (h : Tock S s s') (t : Tid) :
    actsOf t s'.sh.trace = actsOf t s.sh.trace ∨
      ∃ a, Poised s t a ∧ actsOf t s'.sh.trace = actsOf t s.sh.trace ++ [a] := by
  rcases h with h | rfl
  · cases h with
    | work hw =>
      cases hw with
      | client i c a p sh hc hn ha =>
        simp only [acts_trace ha, actsOf_append, acts_one]
        split
        · rename_i e; subst e; exact .inr ⟨a, ⟨c, p, hc, hn⟩, rfl⟩
        · simp
      | worker a p sh hn ha =>
        simp only [acts_trace ha, actsOf_append, acts_one]
        split
        · rename_i e; subst e; exact .inr ⟨a, ⟨p, hn⟩, rfl⟩
        · simp
      | flush i c v p hc hn hwk =>
        simp only [actsOf_append, acts_one]
        split
        · rename_i e; subst e; exact .inr ⟨_, ⟨c, p, hc, hn⟩, rfl⟩
        · simp
      | flushed i c b p q hc hn hwk =>
        cases t with
        | worker => exact .inr ⟨_, ⟨q, hwk⟩, by simp [actsOf]⟩
        | client j =>
          by_cases e : i = j
          · subst e; exact .inr ⟨_, ⟨c, p, hc, hn⟩, by simp [actsOf]⟩
          · left; simp [actsOf, e]
    | tick k hwk => exact .inl rfl
    | arrive c hc => exact .inl rfl
    | environment line ns he => exact .inl rfl
  · exact .inl rfl

/-- Who does nothing is still about to do the same. -/
theorem poised_stays {S : Setup σ} {s s' : Sys σ} (h : Tock S s s') {t : Tid} {a : Act}
    (hp : Poised s t a) (hi : actsOf t s'.sh.trace = actsOf t s.sh.trace) : Poised s' t a := by
  have no : ∀ {x : List Act}, actsOf t s.sh.trace ++ x = actsOf t s.sh.trace → x = [] := by
    intro x hx; simpa using hx
  rcases h with h | rfl
  · cases h with
    | work hw =>
      cases hw with
      | client i c b p sh hc hn ha =>
        simp only [acts_trace ha, actsOf_append, acts_one] at hi
        have := no hi
        split at this
        · cases this
        · rename_i e
          cases t with
          | worker => exact hp
          | client j =>
            obtain ⟨d, q, h1, h2⟩ := hp
            exact ⟨d, q, by rw [setClient_get, if_neg fun h => e (by rw [h])]; exact h1, h2⟩
      | worker b p sh hn ha =>
        simp only [acts_trace ha, actsOf_append, acts_one] at hi
        have := no hi
        cases t with
        | worker => simp at this
        | client j => exact hp
      | flush i c v p hc hn hwk =>
        simp only [actsOf_append, acts_one] at hi
        have := no hi
        split at this
        · cases this
        · rename_i e
          cases t with
          | worker =>
            obtain ⟨q, h⟩ := hp
            rw [hwk] at h; cases h
          | client j =>
            obtain ⟨d, q, h1, h2⟩ := hp
            exact ⟨d, q, by rw [setClient_get, if_neg fun h => e (by rw [h])]; exact h1, h2⟩
      | flushed i c b p q hc hn hwk =>
        cases t with
        | worker => simp [actsOf] at hi
        | client j =>
          by_cases e : i = j
          · subst e; simp [actsOf] at hi
          · obtain ⟨d, q, h1, h2⟩ := hp
            exact ⟨d, q, by rw [setClient_get, if_neg e]; exact h1, h2⟩
    | tick k hwk =>
      cases t with
      | worker =>
        obtain ⟨q, h⟩ := hp
        rw [hwk] at h; cases h
      | client j => exact hp
    | arrive c hc =>
      cases t with
      | worker => exact hp
      | client j =>
        obtain ⟨d, q, h1, h2⟩ := hp
        refine ⟨d, q, ?_, h2⟩
        obtain ⟨hlt, -⟩ := List.getElem?_eq_some_iff.1 h1
        rw [List.getElem?_append_left hlt]; exact h1
    | environment line ns he =>
      cases t with
      | worker => exact hp
      | client j => exact hp
  · exact hp

/-- The request of a client does not change. -/
theorem call_stays {S : Setup σ} {s s' : Sys σ} (h : Tock S s s') {i : Nat} {c : Client}
    (hc : s.clients[i]? = some c) : ∃ c', s'.clients[i]? = some c' ∧ c'.call = c.call := by
  have set : ∀ j p, ∃ c', (s.setClient j p)[i]? = some c' ∧ c'.call = c.call := by
    intro j p
    rw [setClient_get]
    split
    · rw [hc]; exact ⟨_, rfl, rfl⟩
    · exact ⟨c, hc, rfl⟩
  rcases h with h | rfl
  · cases h with
    | work hw =>
      cases hw with
      | client j => exact set _ _
      | worker => exact ⟨c, hc, rfl⟩
      | flush j => exact set _ _
      | flushed j => exact set _ _
    | tick => exact ⟨c, hc, rfl⟩
    | arrive d =>
      obtain ⟨hlt, -⟩ := List.getElem?_eq_some_iff.1 hc
      exact ⟨c, by rw [List.getElem?_append_left hlt]; exact hc, rfl⟩
    | environment => exact ⟨c, hc, rfl⟩
  · exact ⟨c, hc, rfl⟩

/-- Two actions of the same kind. -/
def sameKind : Act → Act → Prop
  | .lock l, .lock l' | .unlock l, .unlock l' | .rlock l, .rlock l' | .runlock l, .runlock l' => l = l'
  | .sleep m, .sleep n => m = n
  | .now _, .now _ | .wrote _ _, .wrote _ _ | .got _ _, .got _ _ | .load _ _, .load _ _
  | .store _ _, .store _ _ | .note _ _, .note _ _ | .sendFlush _, .sendFlush _
  | .recvFlushed _, .recvFlushed _ | .sendFlushed _, .sendFlushed _ => True
  | _, _ => False

theorem next_kind {p q r : Prog α} {a b : Act} (h : p.Next a q) (h' : p.Next b r) : sameKind a b := by
  cases h <;> cases h' <;> first | rfl | trivial

theorem poised_kind {s : Sys σ} {t : Tid} {a b : Act} (h : Poised s t a) (h' : Poised s t b) :
    sameKind a b := by
  cases t with
  | worker =>
    obtain ⟨p, h⟩ := h
    obtain ⟨q, h'⟩ := h'
    exact next_kind h h'
  | client i =>
    obtain ⟨c, p, hc, h⟩ := h
    obtain ⟨c', q, hc', h'⟩ := h'
    rw [hc] at hc'; cases hc'
    exact next_kind h h'

theorem kind_lock {l : Lock} {a : Act} (h : sameKind (.lock l) a) : a = .lock l := by
  cases a <;> first | exact absurd h id | (cases h; rfl)

/-- A lock is held because it was held before or because it is taken. -/
theorem held_before {S : Setup σ} {s s' : Sys σ} (h : Tock S s s') {x : Held} (hx : x ∈ s'.sh.held) :
    x ∈ s.sh.held ∨ s'.sh.trace = s.sh.trace ++ [(x.tid, taking x.lock x.excl)] := by
  have act : ∀ {t a sh'}, Acts S.line t a s.sh sh' → x ∈ sh'.held →
      x ∈ s.sh.held ∨ sh'.trace = s.sh.trace ++ [(x.tid, taking x.lock x.excl)] := by
    intro t a sh' ha hx
    cases ha with
    | lock =>
      rcases List.mem_cons.1 hx with rfl | hx
      · exact .inr rfl
      · exact .inl hx
    | rlock =>
      rcases List.mem_cons.1 hx with rfl | hx
      · exact .inr rfl
      · exact .inl hx
    | unlock => exact .inl (List.mem_of_mem_erase hx)
    | runlock => exact .inl (List.mem_of_mem_erase hx)
    | _ => exact .inl hx
  rcases h with h | rfl
  · cases h with
    | work hw =>
      cases hw with
      | client i c a p sh _ _ ha => exact act ha hx
      | worker a p sh _ ha => exact act ha hx
      | _ => exact .inl hx
    | _ => exact .inl hx
  · exact .inl hx

/-- A lock is held until it is given back. -/
theorem held_after {S : Setup σ} {s s' : Sys σ} (h : Tock S s s') {x : Held} (hx : x ∈ s.sh.held) :
    x ∈ s'.sh.held ∨ s'.sh.trace = s.sh.trace ++ [(x.tid, releasing x.lock x.excl)] := by
  have act : ∀ {t a sh'}, Acts S.line t a s.sh sh' →
      x ∈ sh'.held ∨ sh'.trace = s.sh.trace ++ [(x.tid, releasing x.lock x.excl)] := by
    intro t a sh' ha
    cases ha with
    | lock => exact .inl (List.mem_cons_of_mem _ hx)
    | rlock => exact .inl (List.mem_cons_of_mem _ hx)
    | @unlock l hl =>
      by_cases e : x = ⟨l, true, t⟩
      · subst e; exact .inr rfl
      · exact .inl ((List.mem_erase_of_ne e).2 hx)
    | @runlock l hl =>
      by_cases e : x = ⟨l, false, t⟩
      · subst e; exact .inr rfl
      · exact .inl ((List.mem_erase_of_ne e).2 hx)
    | _ => exact .inl hx
  rcases h with h | rfl
  · cases h with
    | work hw =>
      cases hw with
      | client i c a p sh _ _ ha => exact act ha
      | worker a p sh _ ha => exact act ha
      | _ => exact .inl hx
    | _ => exact .inl hx
  · exact .inl hx

/-- Who gives a lock back does not hold it any more. -/
theorem given_back {S : Setup σ} {w : World σ} {s s' : Sys σ} (hr : Reachable S (Sys.initial w) s)
    (h : Tock S s s') {x : Held}
    (hx : actsOf x.tid s'.sh.trace = actsOf x.tid s.sh.trace ++ [releasing x.lock x.excl]) :
    x ∉ s'.sh.held := by
  obtain ⟨g, hi⟩ := inv1 hr
  have hG : Glob1 g s.sh := hi.glob
  have act : ∀ {t a sh'}, Acts S.line t a s.sh sh' →
      actsOf x.tid sh'.trace = actsOf x.tid s.sh.trace ++ [releasing x.lock x.excl] → x ∉ sh'.held := by
    intro t a sh' ha hx
    rw [acts_trace ha, actsOf_append, acts_one] at hx
    replace hx := List.append_cancel_left hx
    obtain ⟨l, b, u⟩ := x
    split at hx
    · rename_i e
      simp only at e
      subst e
      cases hx
      cases b
      · cases ha with
        | runlock => exact fun hm => (hG.nodup.mem_erase_iff.1 hm).1 rfl
      · cases ha with
        | unlock => exact fun hm => (hG.nodup.mem_erase_iff.1 hm).1 rfl
    · cases hx
  have rel : ∀ a, a = releasing x.lock x.excl → (∀ l, a ≠ .unlock l) → (∀ l, a ≠ .runlock l) → False := by
    intro a h h1 h2
    unfold releasing at h
    split at h
    · exact h1 _ h
    · exact h2 _ h
  have self : actsOf x.tid s.sh.trace ≠ actsOf x.tid s.sh.trace ++ [releasing x.lock x.excl] := by
    intro h
    have := congrArg List.length h
    simp at this
  rcases h with h | rfl
  · cases h with
    | work hw =>
      cases hw with
      | client i c a p sh _ _ ha => exact act ha hx
      | worker a p sh _ ha => exact act ha hx
      | flush i c v p =>
        rw [actsOf_append, acts_one] at hx
        have hx := List.append_cancel_left hx
        split at hx
        · injection hx with hx
          exact (rel _ hx (by simp) (by simp)).elim
        · cases hx
      | flushed i c b p q =>
        rw [actsOf_append] at hx
        have hx := List.append_cancel_left hx
        have : releasing x.lock x.excl ∈ actsOf x.tid
            [(Tid.worker, Act.sendFlushed b), (.client i, .recvFlushed b)] := by rw [hx]; simp
        have := Comfo.mem_actsOf.1 this
        simp only [List.mem_cons, List.not_mem_nil, or_false, Prod.mk.injEq] at this
        rcases this with ⟨-, h⟩ | ⟨-, h⟩
        · exact (rel _ h.symm (by simp) (by simp)).elim
        · exact (rel _ h.symm (by simp) (by simp)).elim
    | tick => exact absurd hx self
    | arrive => exact absurd hx self
    | environment => exact absurd hx self
  · exact absurd hx self

/-! ## Executions -/

variable {S : Setup σ} {w : World σ} {f : Nat → Sys σ}

theorem run_reach (hf : Execution S w f) (n : Nat) : Reachable S (Sys.initial w) (f n) := by
  induction n with
  | zero => rw [hf.start]; exact .start
  | succ n ih =>
    rcases hf.next n with h | h
    · exact .step ih h
    · rw [h]; exact ih

theorem acts_grow (hf : Execution S w f) (t : Tid) {m n : Nat} (h : m ≤ n) :
    actsOf t (f m).sh.trace <+: actsOf t (f n).sh.trace := by
  induction h with
  | refl => exact List.prefix_refl _
  | @step n _ ih =>
    rcases step_acts (hf.next n) t with e | ⟨a, -, e⟩
    · rw [e]; exact ih
    · rw [e]; exact ih.trans (List.prefix_append _ _)

theorem idle_part (hf : Execution S w f) {t : Tid} {m k n : Nat} (h : Still f t m n) (h1 : m ≤ k) (h2 : k ≤ n) :
    Still f t m k ∧ Still f t k n := by
  have p1 := acts_grow hf t h1
  have p2 := acts_grow hf t h2
  have e : actsOf t (f k).sh.trace = actsOf t (f m).sh.trace := by
    have l1 := p1.length_le
    have l2 := p2.length_le
    rw [show actsOf t (f n).sh.trace = _ from h] at l2
    exact (p1.eq_of_length (by omega)).symm
  exact ⟨e, by unfold Still; rw [e]; exact h⟩

theorem poised_idle (hf : Execution S w f) {t : Tid} {a : Act} {m n : Nat} (h : m ≤ n) (hi : Still f t m n)
    (hp : Poised (f m) t a) : Poised (f n) t a := by
  induction h with
  | refl => exact hp
  | @step n h ih =>
    obtain ⟨i1, i2⟩ := idle_part hf hi h (Nat.le_succ n)
    exact poised_stays (hf.next n) (ih i1) i2

/-- The time a series of actions takes. -/
theorem chain (hf : Execution S w f) {t : Tid} {a b : Nat} (hab : a ≤ b) (cost : Act → Nat)
    (hk : ∀ x y, sameKind x y → cost x = cost y)
    (hP : ∀ c, a ≤ c → c ≤ b → ∃ y, Poised (f c) t y)
    (hI : ∀ c n y, a ≤ c → c ≤ n → n ≤ b → Still f t c n → Poised (f c) t y →
      (f (n + 1)).sh.world.clock ≤ (f c).sh.world.clock + (cost y : Nat)) :
    ∃ as y, actsOf t (f b).sh.trace = actsOf t (f a).sh.trace ++ as ∧ Poised (f b) t y ∧
      (f (b + 1)).sh.world.clock ≤ (f a).sh.world.clock + (((as ++ [y]).map cost).sum : Nat) := by
  have key : ∃ c as, a ≤ c ∧ c ≤ b ∧ Still f t c b ∧
      actsOf t (f b).sh.trace = actsOf t (f a).sh.trace ++ as ∧
      (f c).sh.world.clock ≤ (f a).sh.world.clock + ((as.map cost).sum : Nat) := by
    induction hab with
    | refl => exact ⟨a, [], Nat.le_refl _, Nat.le_refl _, rfl, by simp, by simp⟩
    | @step b hab ih =>
      obtain ⟨c, as, h1, h2, h3, h4, h5⟩ := ih (fun c h h' => hP c h (Nat.le_succ_of_le h'))
        (fun c n y h h' h'' => hI c n y h h' (Nat.le_succ_of_le h''))
      rcases step_acts (hf.next b) t with e | ⟨x, hx, e⟩
      · exact ⟨c, as, h1, Nat.le_succ_of_le h2, e.trans h3, e.trans h4, h5⟩
      · refine ⟨b + 1, as ++ [x], Nat.le_succ_of_le hab, Nat.le_refl _, rfl, ?_, ?_⟩
        · rw [e, h4, List.append_assoc]
        · obtain ⟨y, hy⟩ := hP c h1 (Nat.le_succ_of_le h2)
          have hc := hI c b y h1 h2 (Nat.le_succ b) h3 hy
          have := hk _ _ (poised_kind (poised_idle hf h2 h3 hy) hx)
          rw [List.map_append, List.sum_append]
          simp only [List.map_cons, List.map_nil, List.sum_cons, List.sum_nil]
          omega
  obtain ⟨c, as, h1, h2, h3, h4, h5⟩ := key
  obtain ⟨y, hy⟩ := hP c h1 h2
  refine ⟨as, y, h4, poised_idle hf h2 h3 hy, ?_⟩
  have := hI c b y h1 h2 (Nat.le_refl b) h3 hy
  rw [List.map_append, List.sum_append]
  simp only [List.map_cons, List.map_nil, List.sum_cons, List.sum_nil]
  omega

/-! ## Waiting for a mutex -/

/-- As long as something lasts. -/
theorem stretch {P : Nat → Prop} {c n : Nat} (h : c ≤ n) (hc : P c) :
    ∃ d, c ≤ d ∧ d ≤ n ∧ (∀ k, c ≤ k → k ≤ d → P k) ∧ (d = n ∨ ¬ P (d + 1)) := by
  induction h with
  | refl => exact ⟨c, Nat.le_refl _, Nat.le_refl _, fun k h1 h2 => by
      rw [Nat.le_antisymm h2 h1]; exact hc, .inl rfl⟩
  | @step n h ih =>
    obtain ⟨d, h1, h2, h3, h4⟩ := ih
    rcases h4 with rfl | h4
    · by_cases hp : P (d + 1)
      · refine ⟨d + 1, Nat.le_succ_of_le h1, Nat.le_refl _, fun k k1 k2 => ?_, .inl rfl⟩
        rcases Nat.lt_or_ge d k with h | h
        · rw [show k = d + 1 by omega]; exact hp
        · exact h3 k k1 h
      · exact ⟨d, h1, Nat.le_succ d, h3, .inr hp⟩
    · exact ⟨d, h1, Nat.le_succ_of_le h2, h3, .inr h4⟩

theorem taking_ne_releasing (l l' : Lock) (b b' : Bool) : taking l b ≠ releasing l' b' := by
  cases b <;> cases b' <;> simp [taking, releasing]

/-- Goroutine `t` waits for `l`, to have it alone or (`x = false`) to share it; `ws` are those who may have
it before. -/
theorem wait_taking (hf : Execution S w f) {δ : Nat} (hp : Prompt S.line f δ) {l : Lock} {x : Bool} {t : Tid}
    {m n : Nat} (ht : Poised (f m) t (taking l x)) (hid : Still f t m n)
    (hq : ∀ d, m ≤ d → d ≤ n → ∀ u b, (b || x) = true → u ≠ t →
      (f (d + 1)).sh.trace = (f d).sh.trace ++ [(u, taking l b)] →
      Poised (f m) u (taking l b) ∧ Still f u m d) (cost : Tid → Nat)
    (hold : ∀ u b c d, m ≤ c → c ≤ d → d ≤ n → (∀ k, c ≤ k → k ≤ d → ⟨l, b, u⟩ ∈ (f k).sh.held) →
      (f (d + 1)).sh.world.clock ≤ (f c).sh.world.clock + (cost u : Nat))
    (ws : List Tid) (c : Nat) (h1 : m ≤ c) (h2 : c ≤ n)
    (hws : ∀ u, u ≠ t → (∃ b, (b || x) = true ∧ (⟨l, b, u⟩ ∈ (f c).sh.held ∨ Poised (f m) u (taking l b) ∧ Still f u m c)) →
      u ∈ ws)
    (hno : ∀ k b, m ≤ k → k ≤ n → ⟨l, b, t⟩ ∉ (f k).sh.held) :
    (f (n + 1)).sh.world.clock ≤ (f c).sh.world.clock + ((ws.map fun u => cost u + δ).sum + δ : Nat) := by
  have last : lasting δ (taking l x) = δ := by cases x <;> rfl
  have able : ∀ {k}, (¬ ∃ u b, (b || x) = true ∧ ⟨l, b, u⟩ ∈ (f k).sh.held) →
      Poised (f k) t (taking l x) → ∃ s', Moves S.line t (f k) s' := by
    intro k hno hpk
    have hact : ∃ sh', Acts S.line t (taking l x) (f k).sh sh' ∧
        sh'.trace = (f k).sh.trace ++ [(t, taking l x)] := by
      cases x with
      | true => exact ⟨_, .lock fun h hm e => hno ⟨h.tid, h.excl, by simp, by rw [← e]; exact hm⟩, rfl⟩
      | false => exact ⟨_, .rlock fun h hm e => by
          cases hx : h.excl with
          | false => rfl
          | true => exact absurd ⟨h.tid, true, rfl, by rw [← e, ← hx]; exact hm⟩ hno, rfl⟩
    obtain ⟨sh', h1, h2⟩ := hact
    obtain ⟨s', h3, h4⟩ := canAct hpk h1
    exact ⟨s', h3, _, by rw [h4, h2]⟩
  -- those who may have it can only become fewer
  have cov : ∀ (ws : List Tid) c d, m ≤ c → c ≤ d → d ≤ n →
      (∀ u, u ≠ t → (∃ b, (b || x) = true ∧ (⟨l, b, u⟩ ∈ (f c).sh.held ∨ Poised (f m) u (taking l b) ∧ Still f u m c)) →
        u ∈ ws) →
      ∀ u, u ≠ t → (∃ b, (b || x) = true ∧ (⟨l, b, u⟩ ∈ (f d).sh.held ∨ Poised (f m) u (taking l b) ∧ Still f u m d)) →
        u ∈ ws := by
    intro ws c d hc hcd
    induction hcd with
    | refl => intro _ h; exact h
    | @step d hcd ih =>
      intro hd h u hu hb
      have hmd : m ≤ d := Nat.le_trans hc hcd
      have hdn : d ≤ n := Nat.le_of_succ_le hd
      obtain ⟨b, hx, hb | ⟨hb, hi⟩⟩ := hb
      · rcases held_before (hf.next d) hb with h' | h'
        · exact ih hdn h u hu ⟨b, hx, .inl h'⟩
        · have := hq d hmd hdn u b hx hu h'
          exact ih hdn h u hu ⟨b, hx, .inr this⟩
      · exact ih hdn h u hu ⟨b, hx, .inr ⟨hb, (idle_part hf hi hmd (Nat.le_succ d)).1⟩⟩
  have main : ∀ (N : Nat) (ws : List Tid), ws.length ≤ N → ∀ c, m ≤ c → c ≤ n →
      (∀ u, u ≠ t → (∃ b, (b || x) = true ∧ (⟨l, b, u⟩ ∈ (f c).sh.held ∨ Poised (f m) u (taking l b) ∧ Still f u m c)) →
        u ∈ ws) →
      (f (n + 1)).sh.world.clock ≤ (f c).sh.world.clock + ((ws.map fun u => cost u + δ).sum + δ : Nat) ∧
      ((∃ u b, (b || x) = true ∧ ⟨l, b, u⟩ ∈ (f c).sh.held) →
        (f (n + 1)).sh.world.clock ≤ (f c).sh.world.clock + ((ws.map fun u => cost u + δ).sum : Nat)) := by
    intro N
    induction N with
    | zero =>
      intro ws hN c hc hcn hws
      have e : ws = [] := List.eq_nil_of_length_eq_zero (Nat.le_zero.1 hN)
      subst e
      have free : ∀ k, c ≤ k → k ≤ n → ¬ ∃ u b, (b || x) = true ∧ ⟨l, b, u⟩ ∈ (f k).sh.held := by
        rintro k h1 h2 ⟨u, b, hx, hm⟩
        by_cases hu : u = t
        · subst hu; exact hno k b (Nat.le_trans hc h1) h2 hm
        · have := cov [] c k hc h1 h2 hws u hu ⟨b, hx, .inl hm⟩
          cases this
      refine ⟨?_, fun h => absurd h (free c (Nat.le_refl _) hcn)⟩
      have := hp t c n hcn (fun k h1 h2 => by
        have hpk := poised_idle hf (Nat.le_trans hc h1) (idle_part hf hid (Nat.le_trans hc h1) h2).1 ht
        exact able (free k h1 h2) hpk) (idle_part hf hid hc hcn).2 (taking l x)
        (poised_idle hf hc (idle_part hf hid hc hcn).1 ht)
      rw [last] at this
      simpa using this
    | succ N ih =>
      intro ws hN
      -- somebody has it
      have held : ∀ c, m ≤ c → c ≤ n →
          (∀ u, u ≠ t → (∃ b, (b || x) = true ∧ (⟨l, b, u⟩ ∈ (f c).sh.held ∨ Poised (f m) u (taking l b) ∧ Still f u m c)) →
            u ∈ ws) → (∃ u b, (b || x) = true ∧ ⟨l, b, u⟩ ∈ (f c).sh.held) →
          (f (n + 1)).sh.world.clock ≤ (f c).sh.world.clock +
            ((ws.map fun u => cost u + δ).sum : Nat) := by
        rintro c hc hcn hws ⟨u, b, hx, hu⟩
        have hut : u ≠ t := fun e => hno c b hc hcn (e ▸ hu)
        have hmem : u ∈ ws := hws u hut ⟨b, hx, .inl hu⟩
        have hsum : (ws.map fun u => cost u + δ).sum =
            cost u + δ + ((ws.erase u).map fun u => cost u + δ).sum := by
          rw [((List.perm_cons_erase hmem).map fun u => cost u + δ).sum_nat]
          simp
        obtain ⟨d, d1, d2, d3, d4⟩ := stretch (P := fun k => ⟨l, b, u⟩ ∈ (f k).sh.held) hcn hu
        have hcost := hold u b c d hc d1 d2 d3
        rcases Nat.eq_or_lt_of_le d2 with rfl | hdn
        · omega
        · have hnot : ⟨l, b, u⟩ ∉ (f (d + 1)).sh.held := by
            rcases d4 with rfl | h
            · exact absurd hdn (Nat.lt_irrefl _)
            · exact h
          have hrel := (held_after (hf.next d) (d3 d d1 (Nat.le_refl _))).resolve_left hnot
          have hmd : m ≤ d := Nat.le_trans hc d1
          have hcov := cov ws c (d + 1) hc (Nat.le_succ_of_le d1) hdn hws
          have := (ih (ws.erase u) (by rw [List.length_erase_of_mem hmem]; omega) (d + 1)
            (Nat.le_succ_of_le hmd) hdn (fun v hv hb => by
              have hvu : v ≠ u := by
                rintro rfl
                obtain ⟨b', -, hb | ⟨-, hi⟩⟩ := hb
                · rcases held_before (hf.next d) hb with h' | h'
                  · obtain ⟨g, hinv⟩ := inv1 (run_reach hf d)
                    have hG : Glob1 g (f d).sh := hinv.glob
                    have hne : b ≠ b' := fun e => hnot (e ▸ hb)
                    have hud := d3 d d1 (Nat.le_refl _)
                    cases b with
                    | true =>
                      have := hG.excl _ hud _ h' rfl rfl
                      injection this with _ e; exact hne e
                    | false =>
                      have hb' : b' = true := by cases b' <;> first | rfl | exact absurd rfl hne
                      subst hb'
                      have := hG.excl _ h' _ hud rfl rfl
                      injection this with _ e; exact hne e.symm
                  · rw [hrel] at h'
                    have := List.append_cancel_left h'
                    simp only [List.cons.injEq, Prod.mk.injEq, true_and, and_true] at this
                    exact taking_ne_releasing _ _ _ _ this.symm
                · have := (idle_part hf hi hmd (Nat.le_succ d)).2
                  unfold Still at this
                  rw [hrel, actsOf_append, acts_one, if_pos rfl] at this
                  simp at this
              exact (List.mem_erase_of_ne hvu).2 (hcov v hv hb))).1
          omega
      intro c hc hcn hws
      refine ⟨?_, held c hc hcn hws⟩
      by_cases hh : ∃ u b, (b || x) = true ∧ ⟨l, b, u⟩ ∈ (f c).sh.held
      · have := held c hc hcn hws hh
        omega
      · -- nobody has it
        obtain ⟨d, d1, d2, d3, d4⟩ := stretch (P := fun k => ¬ ∃ u b, (b || x) = true ∧ ⟨l, b, u⟩ ∈ (f k).sh.held) hcn hh
        have hpd := hp t c d d1 (fun k h1 h2 => by
          have hkn := Nat.le_trans h2 d2
          have hpk := poised_idle hf (Nat.le_trans hc h1) (idle_part hf hid (Nat.le_trans hc h1) hkn).1 ht
          exact able (d3 k h1 h2) hpk)
          (idle_part hf (idle_part hf hid hc hcn).2 d1 d2).1 (taking l x)
          (poised_idle hf hc (idle_part hf hid hc hcn).1 ht)
        rw [last] at hpd
        rcases Nat.eq_or_lt_of_le d2 with rfl | hdn
        · omega
        · have hnot := d4.resolve_left (by omega)
          have := held (d + 1) (by omega) hdn
            (cov ws c (d + 1) hc (Nat.le_succ_of_le d1) hdn hws) (Classical.not_not.1 hnot)
          omega
  exact (main _ ws (Nat.le_refl _) c h1 h2 hws).1

/-- Goroutine `t` waits to have `l` alone. -/
theorem wait_lock (hf : Execution S w f) {δ : Nat} (hp : Prompt S.line f δ) (hq : Queued f) {l : Lock} {t : Tid}
    {m n : Nat} (ht : Poised (f m) t (.lock l)) (hid : Still f t m n) (cost : Tid → Nat)
    (hold : ∀ u b c d, m ≤ c → c ≤ d → d ≤ n → (∀ k, c ≤ k → k ≤ d → ⟨l, b, u⟩ ∈ (f k).sh.held) →
      (f (d + 1)).sh.world.clock ≤ (f c).sh.world.clock + (cost u : Nat))
    (ws : List Tid) (c : Nat) (h1 : m ≤ c) (h2 : c ≤ n)
    (hws : ∀ u, u ≠ t → (∃ b, ⟨l, b, u⟩ ∈ (f c).sh.held ∨ Poised (f m) u (taking l b) ∧ Still f u m c) →
      u ∈ ws)
    (hno : ∀ k b, m ≤ k → k ≤ n → ⟨l, b, t⟩ ∉ (f k).sh.held) :
    (f (n + 1)).sh.world.clock ≤ (f c).sh.world.clock + ((ws.map fun u => cost u + δ).sum + δ : Nat) :=
  wait_taking (x := true) hf hp ht hid
    (fun d d1 d2 u b hb hu htr => hq l true t m d d1 ht (idle_part hf hid d1 d2).1 u b hb hu htr) cost hold ws c h1 h2
    (fun u hu ⟨b, _, h⟩ => hws u hu ⟨b, h⟩) hno

end Comfo.Pace
