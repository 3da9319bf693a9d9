import Verif.Lemmas.Hold
import Verif.Lemmas.Exec
import Verif.Props.Sync
import Verif.Props.Served
/-!
# While the lock of a cache is held: C82
-/
namespace Comfo
open Spec

namespace Props

/-! ## C82 -/

/-- **C82** (1) Between taking the lock of a cache and giving it back, a goroutine touches no other
cache, waits for no other lock but that of the line, does not sleep, uses no channel, and makes at
most one query of the unit, which asks for the value of that cache. -/
theorem C82_hold {S : Setup σ} {w : World σ} {s : Sys σ} (h : Reachable S (Sys.initial w) s)
    {t : Tid} {id : CacheId} {pre mid rest : List (Tid × Act)}
    (ht : s.sh.trace = pre ++ (t, .lock (.cache id)) :: mid ++ rest)
    (hn : (t, .unlock (.cache id)) ∉ mid) : Errand id (actsOf t mid) :=
  (hold_acts (b := true) h ht (fun hx => hn (mem_actsOf.1 hx))).1 rfl

/-- **C82** (2) Between taking the lock of a cache shared and giving it back, a goroutine only reads
that cache. -/
theorem C82_hold_shared {S : Setup σ} {w : World σ} {s : Sys σ}
    (h : Reachable S (Sys.initial w) s) {t : Tid} {id : CacheId} {pre mid rest : List (Tid × Act)}
    (ht : s.sh.trace = pre ++ (t, .rlock (.cache id)) :: mid ++ rest)
    (hn : (t, .runlock (.cache id)) ∉ mid) : Glance id (actsOf t mid) :=
  (hold_acts (b := false) h ht (fun hx => hn (mem_actsOf.1 hx))).2 rfl


/-- **C82** (3) A Get request that cannot take its next step waits for a goroutine within the lock
of its own cache, and that goroutine, or the one it waits for at the line, can take a step. -/
theorem C82_get_waits {S : Setup σ} (hL : S.line.NoPanic) {w : World σ} {s : Sys σ}
    (h : Reachable S (Sys.initial w) s) {i : Nat} {c : Client} {id : CacheId}
    (hc : s.clients[i]? = some c) (hg : c.call = getCall id) (hu : ∀ r, c.prog ≠ .ret r)
    (hb : ¬ ∃ s', Moves S.line (.client i) s s') :
    ∃ t, t ≠ .client i ∧
      ((∃ acts, Within s t (.cache id) true acts ∧ Errand id acts) ∨
        ∃ acts, Within s t (.cache id) false acts ∧ Glance id acts) ∧
      ∃ u s', Moves S.line u s s' ∧
        (u = t ∨ ∃ b acts, Within s u .pm b acts ∧ Poised s t (.lock .pm)) := by
  obtain ⟨g, hi⟩ := inv1 h
  have hG : Glob1 g s.sh := hi.glob
  have move : ∀ {t a sh'}, Poised s t a → Acts S.line t a s.sh sh' → ∃ s', Moves S.line t s s' := by
    intro t a sh' hp ha
    obtain ⟨s', h1, h2⟩ := canAct hp ha
    exact ⟨s', h1, a, by rw [h2, acts_trace ha]⟩
  have within : ∀ {l b t}, ⟨l, b, t⟩ ∈ s.sh.held → ∃ acts, Within s t l b acts := by
    intro l b t hm
    obtain ⟨pre, post, h1, h2⟩ := held_trace h _ hm
    exact ⟨_, pre, post, h1, fun hx => h2 (mem_actsOf.2 hx), rfl⟩
  have noRlock : ∀ t, ¬ Poised s t (.rlock .pm) := by
    intro t hp
    cases t with
    | worker =>
      obtain ⟨p, hn⟩ := hp
      exact (ok_next hi.worker hn trivial).1.2.2 rfl
    | client j =>
      obtain ⟨c, p, hc, hn⟩ := hp
      exact (ok_next (hi.client j c hc).1 hn trivial).1.2.2 rfl
  have isPm : ∀ l : Lock, 3 < l.rank → l = .pm := by
    intro l hl
    cases l <;> simp_all [Lock.rank]
  have line : ∀ {u b}, ⟨.pm, b, u⟩ ∈ s.sh.held → ∃ s', Moves S.line u s s' := by
    intro u b hm
    have hm' := (hG.held_iff u .pm b).2 hm
    rcases holder_head hL hi (t := u) (List.ne_nil_of_mem hm') with ⟨a, sh', h1, h2, -⟩ | ⟨l, h1, -⟩
    · exact move h1 h2
    · have := h1 _ hm'
      have := rank_le l
      simp only [Lock.rank] at *
      omega
  -- where the request stands
  obtain ⟨f, hf⟩ : ∃ f : CVal id → Resp, (getCall id).prog S.cv = .lock (.cache id)
      (.load id fun c => .unlock (.cache id) (.ret (f c.val))) := by
    cases id <;> exact ⟨getAnswer _, rfl⟩
  have hpath := (hi.hist.path i c hc).1
  rw [hg, hf] at hpath
  have pos : c.prog = .lock (.cache id) (.load id fun c => .unlock (.cache id) (.ret (f c.val))) ∨
      c.prog = .load id (fun c => .unlock (.cache id) (.ret (f c.val))) ∨
      (∃ v, c.prog = .unlock (.cache id) (.ret v)) ∨ ∃ v, c.prog = .ret v := by
    generalize c.prog = q at hpath
    generalize actsOf (.client i) s.sh.trace = as at hpath
    induction hpath with
    | nil => exact .inl rfl
    | snoc _ hn ih =>
      rcases ih with rfl | rfl | ⟨v, rfl⟩ | ⟨v, rfl⟩
      · cases hn; exact .inr (.inl rfl)
      · cases hn; exact .inr (.inr (.inl ⟨_, rfl⟩))
      · cases hn; exact .inr (.inr (.inr ⟨_, rfl⟩))
      · cases hn
  rcases pos with hp | hp | ⟨v, hp⟩ | ⟨v, hp⟩
  · -- waiting for the lock
    have hpo : Poised s (.client i) (.lock (.cache id)) := ⟨c, _, hc, by rw [hp]; exact .lock⟩
    have : ∃ x ∈ s.sh.held, x.lock = .cache id := by
      apply Classical.byContradiction
      intro hne
      exact hb (move hpo (.lock fun x h1 h2 => hne ⟨x, h1, h2⟩))
    obtain ⟨⟨l, b, t⟩, hm, rfl⟩ := this
    have hm' := (hG.held_iff t _ b).2 hm
    refine ⟨t, ?_, ?_, ?_⟩
    · rintro rfl
      have := (ok_next (hi.client i c hc).1 (a := .lock (.cache id)) (by rw [hp]; exact .lock)
        trivial).1.2 _ hm'
      exact Nat.lt_irrefl _ this
    · obtain ⟨acts, pre, mid, h1, h2, h3⟩ := within hm
      cases b with
      | true =>
        exact .inl ⟨acts, ⟨pre, mid, h1, h2, h3⟩,
          h3 ▸ C82_hold h (rest := []) (by rw [List.append_nil]; exact h1) h2⟩
      | false =>
        exact .inr ⟨acts, ⟨pre, mid, h1, h2, h3⟩,
          h3 ▸ C82_hold_shared h (rest := []) (by rw [List.append_nil]; exact h1) h2⟩
    · rcases holder_head hL hi (t := t) (List.ne_nil_of_mem hm') with ⟨a, sh', h1, h2, -⟩ | ⟨l, h1, h2⟩
      · obtain ⟨s', hs'⟩ := move h1 h2
        exact ⟨t, s', hs', .inl rfl⟩
      · have e := isPm l (h1 _ hm')
        subst e
        have h2 : Poised s t (.lock .pm) := h2.resolve_right (noRlock t)
        by_cases hh : ∃ x ∈ s.sh.held, x.lock = .pm
        · obtain ⟨⟨l, b, u⟩, hm, rfl⟩ := hh
          obtain ⟨s', hs'⟩ := line hm
          obtain ⟨acts, ha⟩ := within hm
          exact ⟨u, s', hs', .inr ⟨b, acts, ha, h2⟩⟩
        · obtain ⟨s', hs'⟩ := move h2 (.lock fun x h1 h3 => hh ⟨x, h1, h3⟩)
          exact ⟨t, s', hs', .inl rfl⟩
  · exact absurd (move (t := .client i) ⟨c, _, hc, by rw [hp]; exact .load _⟩ .load) hb
  · have hn : c.prog.Next (.unlock (.cache id)) (.ret v) := by rw [hp]; exact .unlock
    have := (ok_next (hi.client i c hc).1 hn trivial).1.2.1
    exact absurd (move (t := .client i) ⟨c, _, hc, hn⟩ (.unlock ((hG.held_iff _ _ _).1 this))) hb
  · exact absurd hp (hu v)

/-- Ten seconds after the start. -/
def staleStart : World UInt8 := { line := 0, clock := 10000000000 }

/-- The worker is refreshing the temperatures and has sent its request. A Get request for them cannot go
on; one for the fans is answered meanwhile, and so is the former once the worker is done. -/
example :
    ((Sys.execs demo ([.tick .fast] ++ steps 6 .worker ++ [.arrive .getTemps, .arrive .getFans] ++
        [.go (.client 0)]) (Sys.initial staleStart)).isSome = false) ∧
    ((Sys.execs demo ([.tick .fast] ++ steps 6 .worker ++ [.arrive .getTemps, .arrive .getFans] ++
        steps 3 (.client 1)) (Sys.initial staleStart)).any fun s =>
        written (actsOf .worker s.sh.trace) == [frame 0xD1 []] &&
        s.clients.map (fun c => Prog.isRet c.prog) == [false, true]) = true ∧
    ((Sys.execs demo ([.tick .fast] ++ steps 11 .worker ++ [.arrive .getTemps] ++
        steps 3 (.client 0)) (Sys.initial staleStart)).any fun s =>
        s.clients.map (fun c => Prog.isRet c.prog) == [true]) = true := by
  decide

end Props
end Comfo
