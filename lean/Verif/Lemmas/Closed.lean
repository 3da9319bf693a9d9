import Verif.Spec.Closed
import Verif.Lemmas.Recover
import Verif.Lemmas.Moment
import Verif.Lemmas.RefRead
/-! Helper lemmas for C102: after the connection was closed. -/
namespace Comfo
open Spec Props

/-- What a read finds on a closed connection: an empty packet without error, unless the timer is
faster. -/
theorem read_closed (late : List Bool) (e : Bool) :
    (readPacket { rd := [.fail []], late := late } e).1 = .ret {} none ∨
    (readPacket { rd := [.fail []], late := late } e).1 = .ret {} (some .timeout) := by
  rw [readPacket_ref (show NoEmptyReads [.fail []] by decide)]
  have step : ∀ b, refStep (delivered [.fail []]) (breaks [.fail []]) b = none ∨
      refStep (delivered [.fail []]) (breaks [.fail []]) b = some ([], [], true) := by
    intro b; cases b
    · exact .inr (by decide)
    · exact .inl (by decide)
  have step' : ∀ b, refStep [] true b = none ∨ refStep [] true b = some ([], [], true) := by
    intro b; cases b
    · exact .inr (by decide)
    · exact .inl (by decide)
  unfold refRead
  rcases step (late.headD false) with h | h
  · rw [h]; exact .inr rfl
  · rw [h]
    cases e with
    | false => exact .inl rfl
    | true =>
      simp only [ne_eq, not_true_eq_false, if_false, Bool.not_true, Bool.false_eq_true]
      rcases step' (late.tail.headD false) with h | h
      · rw [h]; exact .inr rfl
      · rw [h]
        simp only [not_true_eq_false, if_false]
        rcases step' (late.tail.tail.headD false) with h | h
        · rw [h]; exact .inr rfl
        · rw [h]; exact .inl rfl

/-- What has happened on the line since it was closed. -/
structure Silence (S : Setup σ) (D : σ → Prop) (ext : List (Tid × Act)) : Prop where
  got : ∀ t e r, (t, .got e r) ∈ ext → r.1 = {} ∧ (r.2 = none ∨ r.2 = some .timeout)
  wrote : ∀ t bs r, (t, .wrote bs r) ∈ ext → ∃ l, D l ∧ (S.line.write bs l).1 = r
  heard : ∀ t e r, (t, .got e r) ∈ ext → ∃ l, D l ∧ (S.line.read e l).1 = .ret r.1 r.2

theorem closed_reachable {S : Setup σ} {D : σ → Prop} (hD : Closed S D) {s₁ s₂ : Sys σ}
    (hd : D s₁.sh.world.line) (h : Reachable S s₁ s₂) :
    D s₂.sh.world.line ∧ ∃ ext, s₂.sh.trace = s₁.sh.trace ++ ext ∧ Silence S D ext := by
  refine line_ind (I := fun l tr => D l ∧ ∃ ext, tr = s₁.sh.trace ++ ext ∧ Silence S D ext)
    ?_ ?_ ?_ ?_ h ?_
  · rintro l tr t bs r l' ⟨hl, ext, rfl, h1, h2, h3⟩ hh
    refine ⟨?_, ext ++ [_], List.append_assoc .., ⟨?_, ?_, ?_⟩⟩
    · have := hD.write bs l hl
      rwa [hh] at this
    · intro u e r' hm
      rcases List.mem_append.1 hm with hm | hm
      · exact h1 u e r' hm
      · simp at hm
    · intro u b r' hm
      rcases List.mem_append.1 hm with hm | hm
      · exact h2 u b r' hm
      · simp only [List.mem_singleton, Prod.mk.injEq, Act.wrote.injEq] at hm
        obtain ⟨-, rfl, rfl⟩ := hm
        exact ⟨l, hl, by rw [hh]⟩
    · intro u e r' hm
      rcases List.mem_append.1 hm with hm | hm
      · exact h3 u e r' hm
      · simp at hm
  · rintro l tr t e q err l' ⟨hl, ext, rfl, h1, h2, h3⟩ hh
    obtain ⟨h4, late, h5⟩ := hD.read e l hl
    rw [hh] at h4 h5
    refine ⟨h4, ext ++ [_], List.append_assoc .., ⟨?_, ?_, ?_⟩⟩
    · intro u e' r' hm
      rcases List.mem_append.1 hm with hm | hm
      · exact h1 u e' r' hm
      · simp only [List.mem_singleton, Prod.mk.injEq, Act.got.injEq] at hm
        obtain ⟨-, rfl, rfl⟩ := hm
        simp only at h5
        rcases read_closed late e' with h | h
        · rw [h] at h5; cases h5; exact ⟨rfl, .inl rfl⟩
        · rw [h] at h5; cases h5; exact ⟨rfl, .inr rfl⟩
    · intro u b r' hm
      rcases List.mem_append.1 hm with hm | hm
      · exact h2 u b r' hm
      · simp at hm
    · intro u e' r' hm
      rcases List.mem_append.1 hm with hm | hm
      · exact h3 u e' r' hm
      · simp only [List.mem_singleton, Prod.mk.injEq, Act.got.injEq] at hm
        obtain ⟨-, rfl, rfl⟩ := hm
        exact ⟨l, hl, by rw [hh]⟩
  · rintro l tr x hx hy ⟨hl, ext, rfl, h1, h2, h3⟩
    refine ⟨hl, ext ++ [x], List.append_assoc .., ⟨?_, ?_, ?_⟩⟩
    · intro u e r' hm
      rcases List.mem_append.1 hm with hm | hm
      · exact h1 u e r' hm
      · rw [List.mem_singleton] at hm
        exact absurd (by rw [← hm]) (hy e r')
    · intro u b r' hm
      rcases List.mem_append.1 hm with hm | hm
      · exact h2 u b r' hm
      · rw [List.mem_singleton] at hm
        exact absurd (by rw [← hm]) (hx b r')
    · intro u e r' hm
      rcases List.mem_append.1 hm with hm | hm
      · exact h3 u e r' hm
      · rw [List.mem_singleton] at hm
        exact absurd (by rw [← hm]) (hy e r')
  · rintro l l' tr ⟨hl, h1⟩ hh
    exact ⟨hD.env _ _ hh hl, h1⟩
  · exact ⟨hd, [], by simp, ⟨by simp, by simp, by simp⟩⟩

/-- As long as reads fail or bring empty packets, no refresh succeeds. -/
theorem scan_closed {id : CacheId} {mid : List (Tid × Act)}
    (h : ∀ t e r, (t, .got e r) ∈ mid → r.1 = {}) (s : Option (CVal id × Int) × (Tid → Cur))
    (hs : ∀ u pl t, s.2 u ≠ .replied pl t) : (mid.foldl (scanAct id) s).1 = s.1 := by
  induction mid generalizing s with
  | nil => rfl
  | cons x mid ih =>
    have step : (scanAct id s x).1 = s.1 ∧ ∀ u pl t, (scanAct id s x).2 u ≠ .replied pl t := by
      obtain ⟨t, a⟩ := x
      unfold scanAct
      match he : evOf a with
      | none => simpa only [he] using ⟨trivial, hs⟩
      | some ev =>
        have hgot : ∀ e r, ev = .got e r → r.1 = {} := by
          rintro e r rfl
          cases a <;> simp [evOf] at he
          obtain ⟨rfl, rfl⟩ := he
          exact h t _ _ (List.mem_cons_self ..)
        simp only
        have : (scanEv id (s.1, s.2 t) ev).1 = s.1 ∧
            ∀ pl ts, (scanEv id (s.1, s.2 t) ev).2 ≠ .replied pl ts := by
          have hst := hs t
          generalize s.2 t = c at hst
          have hcode : ¬ ((({} : Packet).command) = requestCode id + 1) := by cases id <;> decide
          rcases ev with ⟨bs, n, _ | e⟩ | ⟨_ | _, q, _ | e⟩ | ⟨i, ts⟩ | b
          all_goals
            cases c
            all_goals first
              | exact absurd rfl (hst _ _)
              | (refine ⟨rfl, fun pl ts => ?_⟩
                 simp only [scanEv]
                 try (split; next hq => exact absurd (by rw [← hgot _ _ rfl]; exact hq) hcode)
                 try split
                 all_goals simp)
        refine ⟨this.1, fun u pl ts => ?_⟩
        split
        · exact this.2 pl ts
        · exact hs u pl ts
    rw [List.foldl_cons, ih (fun t e r hm => h t e r (List.mem_cons_of_mem _ hm)) _ step.2, step.1]

/-- A cache nobody changes. -/
theorem cache_frozen {S : Setup σ} {s₁ s₂ : Sys σ} (h : Reachable S s₁ s₂) {id : CacheId}
    {ext : List (Tid × Act)} (he : s₂.sh.trace = s₁.sh.trace ++ ext)
    (hs : ∀ t e, (t, .store id e) ∈ ext → e = s₁.sh.world.get id) :
    s₂.sh.world.get id = s₁.sh.world.get id ∧
    ∀ t c, (t, .load id c) ∈ ext → c = s₁.sh.world.get id := by
  induction h generalizing ext with
  | start =>
    have : ext = [] := by simpa using he
    subst this
    exact ⟨rfl, by simp⟩
  | @step s s' hr hst ih =>
    obtain ⟨e₀, he₀⟩ := trace_grows hr
    have act : ∀ {sh' : Shared σ} {t : Tid} {a : Act}, Acts S.line t a s.sh sh' →
        sh'.trace = s₁.sh.trace ++ ext → sh'.world.get id = s₁.sh.world.get id ∧
          ∀ t c, (t, .load id c) ∈ ext → c = s₁.sh.world.get id := by
      intro sh' t a ha htr
      have h1 := acts_trace ha
      rw [htr, he₀, List.append_assoc] at h1
      have h1 := List.append_cancel_left h1
      subst h1
      obtain ⟨ih1, ih2⟩ := ih he₀ fun t e hm => hs t e (List.mem_append_left _ hm)
      have hlast := hs t
      constructor
      · by_cases hx : ∃ e, a = .store id e
        · obtain ⟨e, rfl⟩ := hx
          rw [← hs t e (by simp)]
          cases ha with
          | store => cases id <;> rfl
        · rw [← ih1]
          cases ha <;> try rfl
          rename_i i e
          have : i ≠ id := by rintro rfl; exact hx ⟨e, rfl⟩
          cases i <;> cases id <;> first | rfl | exact absurd rfl this
      · intro u c hm
        rcases List.mem_append.1 hm with hm | hm
        · exact ih2 u c hm
        · simp only [List.mem_singleton, Prod.mk.injEq] at hm
          obtain ⟨rfl, rfl⟩ := hm
          rw [← ih1]
          cases ha; rfl
    have other : ∀ {xs : List (Tid × Act)}, s'.sh.trace = s.sh.trace ++ xs →
        (∀ t c, (t, .load id c) ∉ xs) → s'.sh.world.get id = s.sh.world.get id →
        s'.sh.world.get id = s₁.sh.world.get id ∧
          ∀ t c, (t, .load id c) ∈ ext → c = s₁.sh.world.get id := by
      intro xs h1 h2 h3
      rw [he, he₀, List.append_assoc] at h1
      have h1 := List.append_cancel_left h1
      subst h1
      obtain ⟨ih1, ih2⟩ := ih he₀ fun t e hm => hs t e (List.mem_append_left _ hm)
      refine ⟨h3.trans ih1, fun t c hm => ?_⟩
      rcases List.mem_append.1 hm with hm | hm
      · exact ih2 t c hm
      · exact absurd hm (h2 t c)
    cases hst with
    | work hw =>
      cases hw with
      | client i c b p sh hc hn hact => exact act hact he
      | worker b p sh hn hact => exact act hact he
      | flush i c v p hc hn hwk => exact other rfl (by simp) rfl
      | flushed i c v p q hc hn hwk => exact other rfl (by simp) (by cases id <;> rfl)
    | tick k hwk => exact other (xs := []) (by simp) (by simp) rfl
    | arrive c hc => exact other (xs := []) (by simp) (by simp) rfl
    | environment line ns he => exact other (xs := []) (by simp) (by simp) (by cases id <;> rfl)

end Comfo
