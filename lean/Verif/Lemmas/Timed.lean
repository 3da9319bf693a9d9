import Verif.Lemmas.Exec
import Verif.Lemmas.Post
import Verif.Lemmas.Age
import Verif.Spec.Timed
/-! Helper lemmas: what holds of all executions with times. -/
namespace Comfo
open Spec

/-- Every action is later than the one before by at least the time it takes. -/
def Spaced : Option Int → List (Act × Int) → Prop
  | _, [] => True
  | b, (a, τ) :: rest => (∀ x, b = some x → x + atLeast a ≤ τ) ∧ Spaced (some τ) rest

def lastOf (b : Option Int) (l : List (Act × Int)) : Option Int :=
  match l.getLast? with
  | some x => some x.2
  | none => b

theorem lastOf_cons (b : Option Int) (x : Act × Int) (l : List (Act × Int)) :
    lastOf b (x :: l) = lastOf (some x.2) l := by
  cases l with
  | nil => rfl
  | cons y l => simp [lastOf, List.getLast?_cons_cons, List.getLast?_cons]

theorem Spaced.snoc {b : Option Int} {l : List (Act × Int)} (h : Spaced b l) {a : Act} {τ : Int}
    (ha : ∀ x, lastOf b l = some x → x + atLeast a ≤ τ) : Spaced b (l ++ [(a, τ)]) := by
  induction l generalizing b with
  | nil => exact ⟨ha, trivial⟩
  | cons y l ih =>
    obtain ⟨h1, h2⟩ := h
    exact ⟨h1, ih h2 (by rw [lastOf_cons] at ha; exact ha)⟩

theorem Spaced.right {b : Option Int} {l m : List (Act × Int)} (h : Spaced b (l ++ m)) :
    Spaced (lastOf b l) m := by
  induction l generalizing b with
  | nil => exact h
  | cons y l ih => rw [lastOf_cons]; exact ih h.2

theorem Spaced.left {b : Option Int} {l m : List (Act × Int)} (h : Spaced b (l ++ m)) :
    Spaced b l := by
  induction l generalizing b with
  | nil => trivial
  | cons y l ih => exact ⟨h.1, ih h.2⟩

theorem waited_cons (a : Act) (l : List Act) : waited (a :: l) = atLeast a + waited l := by
  simp [waited]

theorem waited_append (l m : List Act) : waited (l ++ m) = waited l + waited m := by
  simp [waited]

/-- The waiting adds up. -/
theorem Spaced.sum {b T : Int} {l : List (Act × Int)} (h : Spaced (some b) l) (hb : b ≤ T)
    (hT : ∀ x ∈ l, x.2 ≤ T) : b + waited (l.map Prod.fst) ≤ T := by
  induction l generalizing b with
  | nil => simpa [waited] using hb
  | cons x l ih =>
    obtain ⟨h1, h2⟩ := h
    have h3 := h1 b rfl
    have := ih h2 (hT x (by simp)) fun y hy => hT y (by simp [hy])
    rw [List.map_cons, waited_cons]
    omega

theorem Spaced.le_last {b : Option Int} {l : List (Act × Int)} {e : Int} (h : Spaced b l)
    (he : lastOf b l = some e) : (∀ x ∈ l, x.2 ≤ e) ∧ ∀ x, b = some x → x ≤ e := by
  induction l generalizing b with
  | nil => exact ⟨by simp, fun x hx => by rw [show lastOf b [] = b from rfl, hx] at he; cases he; exact Int.le_refl _⟩
  | cons y l ih =>
    obtain ⟨h1, h2⟩ := h
    rw [lastOf_cons] at he
    obtain ⟨i1, i2⟩ := ih h2 he
    have hy := i2 _ rfl
    refine ⟨fun x hx => ?_, fun x hx => ?_⟩
    · rcases List.mem_cons.mp hx with rfl | hx
      · exact hy
      · exact i1 x hx
    · have := h1 x hx
      omega

/-! ## Steps -/

theorem step_new {S : Setup σ} {s s' : Sys σ} (h : Step S s s') :
    ∃ new, s'.sh.trace = s.sh.trace ++ new ∧ s.sh.world.clock ≤ s'.sh.world.clock ∧
      s.clients.length ≤ s'.clients.length ∧
      (∀ t x, (t, .now x) ∈ new → x = s'.sh.world.clock) ∧
      (∀ i a, (Tid.client i, a) ∈ new → i < s.clients.length) ∧
      ∀ t, actsOf t new = [] ∨ ∃ a, actsOf t new = [a] := by
  have one : ∀ (t u : Tid) (a : Act), actsOf t [(u, a)] = [] ∨ ∃ x, actsOf t [(u, a)] = [x] := by
    intro t u a
    simp only [actsOf, List.filterMap_cons, List.filterMap_nil]
    split
    · exact .inl rfl
    · exact .inr ⟨_, rfl⟩
  have clk : ∀ {t a} {sh sh' : Shared σ}, Acts S.line t a sh sh' →
      sh.world.clock ≤ sh'.world.clock ∧ ∀ x, a = .now x → x = sh'.world.clock := by
    intro t a sh sh' h
    have hm := acts_clock h
    refine ⟨hm, fun x hx => ?_⟩
    subst hx
    cases h; rfl
  cases h with
  | work hw =>
    cases hw with
    | client i c a p sh hc hn ha =>
      refine ⟨[(.client i, a)], acts_trace ha, (clk ha).1, by simp [Sys.setClient], ?_, ?_,
        fun t => one _ _ _⟩
      · intro t x hx
        simp only [List.mem_singleton, Prod.mk.injEq] at hx
        exact (clk ha).2 x hx.2.symm
      · intro j b hb
        simp only [List.mem_singleton, Prod.mk.injEq, Tid.client.injEq] at hb
        rw [hb.1]
        exact (List.getElem?_eq_some_iff.mp hc).1
    | worker a p sh hn ha =>
      refine ⟨[(.worker, a)], acts_trace ha, (clk ha).1, by simp, ?_, by simp, fun t => one _ _ _⟩
      intro t x hx
      simp only [List.mem_singleton, Prod.mk.injEq] at hx
      exact (clk ha).2 x hx.2.symm
    | flush i c t p hc hn hi =>
      refine ⟨[(.client i, .sendFlush t)], rfl, Int.le_refl _, by simp [Sys.setClient], by simp, ?_,
        fun t => one _ _ _⟩
      intro j b hb
      simp only [List.mem_singleton, Prod.mk.injEq, Tid.client.injEq] at hb
      rw [hb.1]
      exact (List.getElem?_eq_some_iff.mp hc).1
    | flushed i c b p q hc hn hq =>
      refine ⟨[(.worker, .sendFlushed b), (.client i, .recvFlushed b)], rfl, Int.le_refl _,
        by simp [Sys.setClient], by simp, ?_, ?_⟩
      · intro j b hb
        simp at hb
        rw [hb.1]
        exact (List.getElem?_eq_some_iff.mp hc).1
      · intro t
        cases t with
        | worker => exact .inr ⟨_, rfl⟩
        | client j => exact one (.client j) (.client i) _
  | tick k hi => exact ⟨[], by simp, Int.le_refl _, by simp, by simp, by simp, fun t => .inl rfl⟩
  | arrive c hc => exact ⟨[], by simp, Int.le_refl _, by simp, by simp, by simp, fun t => .inl rfl⟩
  | environment line ns he =>
    exact ⟨[], by simp, by simp; omega, by simp, by simp, by simp, fun t => .inl rfl⟩

/-- The times in the record. -/
structure TimedInv (c : Timed σ) : Prop where
  trace : c.sys.sh.trace = c.log.map fun x => (x.1, x.2.1)
  len : c.arrived.length = c.sys.clients.length
  arr : ∀ x ∈ c.arrived, x ≤ c.sys.sh.world.clock
  le : ∀ x ∈ c.log, x.2.2 ≤ c.sys.sh.world.clock
  sorted : c.log.Pairwise (·.2.2 ≤ ·.2.2)
  now : ∀ t x τ, (t, .now x, τ) ∈ c.log → x = τ
  fresh : ∀ i, c.arrived.length ≤ i → own (.client i) c.log = []
  client : ∀ i b, c.arrived[i]? = some b → Spaced (some b) (own (.client i) c.log)
  worker : Spaced none (own .worker c.log)

theorem own_append (t : Tid) (l m : List (Tid × Act × Int)) : own t (l ++ m) = own t l ++ own t m := by
  simp [own]

theorem own_stamped (t : Tid) (new : List (Tid × Act)) (τ : Int) :
    own t (new.map fun x => (x.1, x.2, τ)) = (actsOf t new).map fun a => (a, τ) := by
  induction new with
  | nil => rfl
  | cons x new ih =>
    obtain ⟨u, a⟩ := x
    by_cases h : u = t
    · simp only [own, actsOf, List.map_cons, List.filterMap_cons, h, if_true] at ih ⊢
      rw [ih]
    · simp only [own, actsOf, List.map_cons, List.filterMap_cons, h, if_false] at ih ⊢
      rw [ih]

theorem actsOf_own (t : Tid) (log : List (Tid × Act × Int)) :
    actsOf t (log.map fun x => (x.1, x.2.1)) = (own t log).map Prod.fst := by
  induction log with
  | nil => rfl
  | cons x log ih =>
    obtain ⟨u, a, τ⟩ := x
    by_cases h : u = t
    · simp only [own, actsOf, List.map_cons, List.filterMap_cons, h, if_true] at ih ⊢
      rw [ih]
    · simp only [own, actsOf, List.map_cons, List.filterMap_cons, h, if_false] at ih ⊢
      rw [ih]

theorem mem_own {t : Tid} {log : List (Tid × Act × Int)} {a : Act} {τ : Int}
    (h : (a, τ) ∈ own t log) : (t, a, τ) ∈ log := by
  obtain ⟨⟨u, b, υ⟩, h1, h2⟩ := List.mem_filterMap.mp h
  simp only at h2
  split at h2
  · rename_i e
    simp only [Option.some.injEq, Prod.mk.injEq] at h2
    rw [← h2.1, ← h2.2, ← e]
    exact h1
  · cases h2

theorem mem_actsOf_iff {t : Tid} {a : Act} {tr : List (Tid × Act)} :
    a ∈ actsOf t tr ↔ (t, a) ∈ tr := by
  constructor
  · intro h
    obtain ⟨⟨u, b⟩, h1, h2⟩ := List.mem_filterMap.mp h
    simp only at h2
    split at h2
    · rename_i e
      cases h2
      rw [← e]; exact h1
    · cases h2
  · intro h
    exact List.mem_filterMap.mpr ⟨_, h, by simp⟩

theorem timed_reach {S : Setup σ} {s₀ : Sys σ} {c : Timed σ} (h : Clocked S s₀ c) :
    Reachable S s₀ c.sys := by
  induction h with
  | start => exact .start
  | step new _ hs _ _ ih => exact ih.step hs

theorem timed_inv {S : Setup σ} {w : World σ} {c : Timed σ} (h : Clocked S (Sys.initial w) c) :
    TimedInv c := by
  induction h with
  | start => exact ⟨rfl, rfl, by simp, by simp, by simp, by simp, fun _ _ => rfl, by simp, trivial⟩
  | @step c s new _ hs hnew hd ih =>
    obtain ⟨new', e1, e2, e3, e4, e5, e6⟩ := step_new hs
    have hn : new' = new := List.append_cancel_left (e1.symm.trans hnew)
    subst hn
    have hsp : ∀ t, Spaced (match t with | .client i => c.arrived[i]? | .worker => none)
          (own t c.log) →
        Spaced (match t with | .client i => c.arrived[i]? | .worker => none)
          (own t (c.log ++ new'.map fun x => (x.1, x.2, s.sh.world.clock))) := by
      intro t ht
      rw [own_append, own_stamped]
      rcases e6 t with h0 | ⟨a, ha⟩
      · rw [h0]; simpa using ht
      · rw [ha]
        refine ht.snoc fun x hx => hd t a ?_ x ?_
        · exact mem_actsOf_iff.mp (by rw [ha]; simp)
        · exact hx
    refine ⟨?_, ?_, ?_, ?_, ?_, ?_, ?_, ?_, hsp .worker ih.worker⟩
    · show s.sh.trace = List.map _ (c.log ++ _)
      rw [hnew, ih.trace, List.map_append, List.map_map]
      congr 1
      simp [Function.comp_def]
    · simp only [List.length_append, List.length_replicate, ih.len]
      omega
    · intro x hx
      rcases List.mem_append.mp hx with hx | hx
      · exact Int.le_trans (ih.arr x hx) e2
      · rw [(List.mem_replicate.mp hx).2]
        exact Int.le_refl _
    · intro x hx
      rcases List.mem_append.mp hx with hx | hx
      · exact Int.le_trans (ih.le x hx) e2
      · obtain ⟨y, -, rfl⟩ := List.mem_map.mp hx
        exact Int.le_refl _
    · refine List.pairwise_append.mpr ⟨ih.sorted, ?_, ?_⟩
      · refine List.pairwise_map.mpr (List.pairwise_of_forall ?_)
        intros; exact Int.le_refl _
      · intro x hx y hy
        obtain ⟨z, -, rfl⟩ := List.mem_map.mp hy
        exact Int.le_trans (ih.le x hx) e2
    · intro t x τ hx
      rcases List.mem_append.mp hx with hx | hx
      · exact ih.now t x τ hx
      · obtain ⟨⟨u, a⟩, h1, h2⟩ := List.mem_map.mp hx
        simp only [Prod.mk.injEq] at h2
        obtain ⟨-, rfl, rfl⟩ := h2
        exact e4 u x h1
    · intro i hi
      simp only [List.length_append, List.length_replicate] at hi
      show own _ (c.log ++ _) = []
      rw [own_append, own_stamped, ih.fresh i (by omega)]
      rcases e6 (.client i) with h0 | ⟨a, ha⟩
      · rw [h0]; rfl
      · have := e5 i a (mem_actsOf_iff.mp (by rw [ha]; simp))
        rw [← ih.len] at this
        omega
    · intro i b hb
      by_cases hi : i < c.arrived.length
      · have hb' : c.arrived[i]? = some b := by
          rw [← hb]
          exact (List.getElem?_append_left hi).symm
        have := hsp (.client i)
        simp only [hb'] at this
        exact this (ih.client i b hb')
      · show Spaced _ (own _ (c.log ++ _))
        rw [own_append, own_stamped, ih.fresh i (by omega)]
        rcases e6 (.client i) with h0 | ⟨a, ha⟩
        · rw [h0]; trivial
        · have := e5 i a (mem_actsOf_iff.mp (by rw [ha]; simp))
          rw [← ih.len] at this
          omega

/-! ## Running with times, for examples -/

/-- What to do next: a step, or letting time pass. -/
inductive TCmd
  | run (c : Cmd)
  | wait (ns : Nat)

def TCmd.exec (S : Setup σ) (s : Sys σ) : TCmd → Option (Sys σ)
  | .run x => Sys.exec1 S x s
  | .wait ns => some { s with sh := { s.sh with
      world := { s.sh.world with clock := s.sh.world.clock + (ns : Int) } } }

def Timed.exec1 (S : Setup σ) (cmd : TCmd) (c : Timed σ) : Option (Timed σ) :=
  match cmd.exec S c.sys with
  | none => none
  | some s =>
    let new := s.sh.trace.drop c.sys.sh.trace.length
    if new.all fun x => match c.last x.1 with
        | some b => decide (b + atLeast x.2 ≤ s.sh.world.clock)
        | none => true then
      some
        { sys := s
          arrived := c.arrived ++
            List.replicate (s.clients.length - c.sys.clients.length) s.sh.world.clock
          log := c.log ++ new.map fun x => (x.1, x.2, s.sh.world.clock) }
    else none

def Timed.execs (S : Setup σ) : List TCmd → Timed σ → Option (Timed σ)
  | [], c => some c
  | x :: xs, c =>
    match Timed.exec1 S x c with
    | some c' => Timed.execs S xs c'
    | none => none

theorem timed_exec1 {S : Setup σ} (hS : ∀ c, S.calls c) (he : ∀ x, S.env x x) {s₀ : Sys σ}
    {cmd : TCmd} {c c' : Timed σ} (h0 : Clocked S s₀ c) (h : Timed.exec1 S cmd c = some c') :
    Clocked S s₀ c' := by
  unfold Timed.exec1 at h
  split at h
  · cases h
  · rename_i s hs
    dsimp only at h
    split at h
    · rename_i ht
      have hstep : Step S c.sys s := by
        cases cmd with
        | run x => exact exec1_sound (fun c _ => hS c) hs
        | wait ns => cases hs; exact .environment _ ns (he _)
      obtain ⟨new, e1, -⟩ := step_new hstep
      have hd : s.sh.trace.drop c.sys.sh.trace.length = new := by rw [e1]; simp
      rw [hd] at h ht
      cases h
      refine h0.step new hstep e1 fun t a hm b hb => ?_
      have := List.all_eq_true.mp ht (t, a) hm
      rw [hb] at this
      exact of_decide_eq_true this
    · cases h

theorem timed_execs {S : Setup σ} (hS : ∀ c, S.calls c) (he : ∀ x, S.env x x) {s₀ : Sys σ}
    {cmds : List TCmd} {c c' : Timed σ} (h0 : Clocked S s₀ c) (h : Timed.execs S cmds c = some c') :
    Clocked S s₀ c' := by
  induction cmds generalizing c with
  | nil => cases h; exact h0
  | cons x xs ih =>
    unfold Timed.execs at h
    split at h
    · rename_i c1 h1
      exact ih (timed_exec1 hS he h0 h1) h
    · cases h

end Comfo
