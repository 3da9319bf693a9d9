import Verif.Lemmas.Echo
import Verif.Lemmas.Post
/-! Helper lemmas: the state of the system at a moment of the past, given by the trace. -/
namespace Comfo
open Spec Props

/-- Actions on the channels. -/
def Act.isChannel : Act → Bool
  | .sendFlush _ | .recvFlushed _ | .sendFlushed _ => true
  | _ => false

/-- The state in which an action of the trace was carried out. -/
theorem moment {S : Setup σ} {w : World σ} {s : Sys σ} (h : Reachable S (Sys.initial w) s)
    {pre post : List (Tid × Act)} {t : Tid} {a : Act} (htr : s.sh.trace = pre ++ (t, a) :: post)
    (ha : a.isChannel = false) :
    ∃ s₁ sh', Reachable S (Sys.initial w) s₁ ∧ s₁.sh.trace = pre ∧ Poised s₁ t a ∧
      Acts S.line t a s₁.sh sh' := by
  induction h generalizing post with
  | start => simp [Sys.initial] at htr
  | @step s s' hr hs ih =>
    cases hs with
    | work hw =>
      cases hw with
      | client i c b p sh hc hn hact =>
        simp only at htr
        rw [acts_trace hact] at htr
        rcases split_snoc htr with ⟨rfl, he, -⟩ | ⟨post', he⟩
        · cases he; exact ⟨s, sh, hr, rfl, ⟨c, p, hc, hn⟩, hact⟩
        · exact ih he
      | worker b p sh hn hact =>
        simp only at htr
        rw [acts_trace hact] at htr
        rcases split_snoc htr with ⟨rfl, he, -⟩ | ⟨post', he⟩
        · cases he; exact ⟨s, sh, hr, rfl, ⟨p, hn⟩, hact⟩
        · exact ih he
      | flush i c v p hc hn hwk =>
        simp only at htr
        rcases split_snoc htr with ⟨rfl, he, -⟩ | ⟨post', he⟩
        · cases he; cases ha
        · exact ih he
      | flushed i c v p q hc hn hwk =>
        simp only at htr
        rw [show ∀ (x y : Tid × Act), s.sh.trace ++ [x, y] = (s.sh.trace ++ [x]) ++ [y] by simp] at htr
        rcases split_snoc htr with ⟨rfl, he, -⟩ | ⟨post', he⟩
        · cases he; cases ha
        · rcases split_snoc he with ⟨rfl, he, -⟩ | ⟨post', he⟩
          · cases he; cases ha
          · exact ih he
    | tick k hwk => exact ih htr
    | arrive c hc => exact ih htr
    | environment line ns he => exact ih htr

theorem poised_must3 {S : Setup σ} {start : (id : CacheId) → Entry (CVal id)} {g : Tid → G1 × G3}
    {s : Sys σ} (hi : (scheme3 S start).Inv g s) {t : Tid} {a : Act}
    (hm : (R1.prod R3).may (g t) a) (h : Poised s t a) : (R1.prod R3).must (g t) a := by
  cases t with
  | client i =>
    obtain ⟨c, p, hc, hn⟩ := h
    exact (ok_next (hi.client i c hc).1 hn hm).1
  | worker =>
    obtain ⟨p, hn⟩ := h
    exact (ok_next hi.worker hn hm).1

/-- What is stored is the result of the last refresh that succeeded. -/
theorem store_current {S : Setup σ} {w : World σ} {s : Sys σ} (h : Reachable S (Sys.initial w) s)
    {pre post : List (Tid × Act)} {t : Tid} {id : CacheId} {e : Entry (CVal id)}
    (htr : s.sh.trace = pre ++ (t, .store id e) :: post) :
    (scanAll id pre).1 = some (e.val, e.last) := by
  obtain ⟨s₁, sh', h1, rfl, hp, ha⟩ := moment h htr rfl
  obtain ⟨g, hi⟩ := inv3 h1
  have hm := poised_must3 hi (a := .store id e) ⟨trivial, trivial⟩ hp
  exact hi.glob.pend id t _ hm.2

/-- A lock is taken when nobody holds it. -/
theorem lock_outside {S : Setup σ} {w : World σ} {s : Sys σ} (h : Reachable S (Sys.initial w) s)
    {pre post : List (Tid × Act)} {t : Tid} {l : Lock}
    (htr : s.sh.trace = pre ++ (t, .lock l) :: post) (u : Tid) : inside u l pre = false := by
  obtain ⟨s₁, sh', h1, rfl, -, ha⟩ := moment h htr rfl
  obtain ⟨g, hi⟩ := inv3 h1
  match hin : inside u l s₁.sh.trace with
  | false => rfl
  | true =>
    obtain ⟨b, hb⟩ := hi.glob.inside u l hin
    have := (hi.glob.base.held_iff u l b).1 hb
    cases ha with
    | lock hf => exact absurd rfl (hf _ this)

/-- A cache holds what was stored in it last. -/
theorem cache_last {S : Setup σ} {w : World σ} {s : Sys σ} (h : Reachable S (Sys.initial w) s)
    (id : CacheId) :
    (s.sh.world.get id = w.get id ∧ ∀ t e, (t, .store id e) ∉ s.sh.trace) ∨
    ∃ pre t post, s.sh.trace = pre ++ (t, .store id (s.sh.world.get id)) :: post ∧
      ∀ t e, (t, .store id e) ∉ post := by
  have key : ∀ {s s' : Sys σ} {ext : List (Tid × Act)},
      ((s.sh.world.get id = w.get id ∧ ∀ t e, (t, .store id e) ∉ s.sh.trace) ∨
        ∃ pre t post, s.sh.trace = pre ++ (t, .store id (s.sh.world.get id)) :: post ∧
          ∀ t e, (t, .store id e) ∉ post) →
      s'.sh.trace = s.sh.trace ++ ext → (∀ t e, (t, .store id e) ∉ ext) →
      s'.sh.world.get id = s.sh.world.get id →
      ((s'.sh.world.get id = w.get id ∧ ∀ t e, (t, .store id e) ∉ s'.sh.trace) ∨
        ∃ pre t post, s'.sh.trace = pre ++ (t, .store id (s'.sh.world.get id)) :: post ∧
          ∀ t e, (t, .store id e) ∉ post) := by
    intro s s' ext ih h1 h2 h3
    rcases ih with ⟨h4, h5⟩ | ⟨pre, t, post, h4, h5⟩
    · refine .inl ⟨h3.trans h4, fun t e hm => ?_⟩
      rw [h1, List.mem_append] at hm
      exact hm.elim (h5 t e) (h2 t e)
    · refine .inr ⟨pre, t, post ++ ext, by rw [h1, h3, h4]; simp, fun t e hm => ?_⟩
      rw [List.mem_append] at hm
      exact hm.elim (h5 t e) (h2 t e)
  have act : ∀ {s s' : Sys σ} {t : Tid} {a : Act},
      ((s.sh.world.get id = w.get id ∧ ∀ t e, (t, .store id e) ∉ s.sh.trace) ∨
        ∃ pre t post, s.sh.trace = pre ++ (t, .store id (s.sh.world.get id)) :: post ∧
          ∀ t e, (t, .store id e) ∉ post) →
      Acts S.line t a s.sh s'.sh →
      ((s'.sh.world.get id = w.get id ∧ ∀ t e, (t, .store id e) ∉ s'.sh.trace) ∨
        ∃ pre t post, s'.sh.trace = pre ++ (t, .store id (s'.sh.world.get id)) :: post ∧
          ∀ t e, (t, .store id e) ∉ post) := by
    intro s s' t a ih ha
    by_cases hst : ∃ e, a = .store id e
    · obtain ⟨e, rfl⟩ := hst
      have htr := acts_trace ha
      have hg : s'.sh.world.get id = e := by
        generalize s'.sh = x at ha
        cases ha with
        | store => cases id <;> rfl
      exact .inr ⟨s.sh.trace, t, [], by rw [htr, hg], by simp⟩
    · refine key ih (acts_trace ha) ?_ ?_
      · intro u e hm
        rw [List.mem_singleton, Prod.mk.injEq] at hm
        exact hst ⟨e, hm.2.symm⟩
      · generalize s'.sh = x at ha
        cases ha <;> try rfl
        rename_i i e
        have : i ≠ id := by rintro rfl; exact hst ⟨e, rfl⟩
        cases i <;> cases id <;> first | rfl | exact absurd rfl this
  induction h with
  | start => exact .inl ⟨rfl, by simp [Sys.initial]⟩
  | @step s s' hr hs ih =>
    cases hs with
    | work hw =>
      cases hw with
      | client i c b p sh hc hn hact => exact act (s' := { s with sh := sh, clients := s.setClient i p }) ih hact
      | worker b p sh hn hact => exact act (s' := { s with sh := sh, worker := p }) ih hact
      | flush i c v p hc hn hwk => exact key ih rfl (by simp) rfl
      | flushed i c v p q hc hn hwk => exact key ih rfl (by simp) (by cases id <;> rfl)
    | tick k hwk => exact ih
    | arrive c hc => exact ih
    | environment line ns he => exact key (ext := []) ih (by simp) (by simp) (by cases id <;> rfl)

/-- What a goroutine saw when it looked at a cache: what was stored there last. -/
theorem load_last {S : Setup σ} {w : World σ} {s : Sys σ} (h : Reachable S (Sys.initial w) s)
    {pre post : List (Tid × Act)} {t : Tid} {id : CacheId} {c : Entry (CVal id)}
    (htr : s.sh.trace = pre ++ (t, .load id c) :: post) :
    (c = w.get id ∧ ∀ t e, (t, .store id e) ∉ pre) ∨
    ∃ p u q, pre = p ++ (u, .store id c) :: q ∧ ∀ t e, (t, .store id e) ∉ q := by
  obtain ⟨s₁, sh', h1, rfl, -, ha⟩ := moment h htr rfl
  have : c = s₁.sh.world.get id := by cases ha; rfl
  rw [this]
  exact cache_last h1 id

/-- Two goroutines are not inside the same exclusive lock. -/
theorem inside_own (t : Tid) (l : Lock) (tr : List (Tid × Act)) (b : Bool) :
    tr.foldl (holdStep t l) b = ((actsOf t tr).map (t, ·)).foldl (holdStep t l) b := by
  induction tr generalizing b with
  | nil => rfl
  | cons x tr ih =>
    obtain ⟨u, a⟩ := x
    rw [List.foldl_cons, ih]
    by_cases hu : u = t
    · subst hu
      have : actsOf u ((u, a) :: tr) = a :: actsOf u tr := by simp [actsOf]
      rw [this]; rfl
    · have : actsOf t ((u, a) :: tr) = actsOf t tr := by simp [actsOf, hu]
      rw [this]
      congr 1
      simp [holdStep, hu]

end Comfo
