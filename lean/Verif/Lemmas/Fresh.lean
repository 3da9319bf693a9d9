import Verif.Lemmas.Served
import Verif.Lemmas.Post
/-! Helper lemmas: where a value in a cache comes from, also if it is looked at without the lock. -/
namespace Comfo
open Spec Props

/-! ## The last store counts -/

/-- `c` is what was stored last in `tr`, or `st` if nothing was. -/
def Source (id : CacheId) (st c : Entry (CVal id)) (tr : List (Tid × Act)) : Prop :=
  (c = st ∧ ∀ t e, (t, .store id e) ∉ tr) ∨
  ∃ pre t post, tr = pre ++ (t, .store id c) :: post ∧ ∀ u e, (u, .store id e) ∉ post

theorem source_snoc {id : CacheId} {st c : Entry (CVal id)} {tr : List (Tid × Act)} {x : Tid × Act}
    (h : Source id st c tr) (hx : ∀ e, x.2 ≠ .store id e) : Source id st c (tr ++ [x]) := by
  have hx' : ∀ t e, (t, Act.store id e) ≠ x := by rintro t e rfl; exact hx e rfl
  rcases h with ⟨h1, h2⟩ | ⟨pre, t, post, rfl, h2⟩
  · exact .inl ⟨h1, fun t e => by simp [h2, hx']⟩
  · exact .inr ⟨pre, t, post ++ [x], by simp, fun u e => by simp [h2, hx']⟩

structure Seen (start : (id : CacheId) → Entry (CVal id)) (sh : Shared σ) : Prop where
  now : ∀ id, Source id (start id) (sh.world.get id) sh.trace
  loads : ∀ pre t id c post, sh.trace = pre ++ (t, .load id c) :: post →
    Source id (start id) c pre

theorem seen_act {start : (id : CacheId) → Entry (CVal id)} {L : Line σ} {t : Tid} {a : Act}
    {sh sh' : Shared σ} (h : Seen start sh) (ha : Acts L t a sh sh') : Seen start sh' := by
  have htr := acts_trace ha
  refine ⟨fun id => ?_, fun pre u id c post he => ?_⟩
  · rw [htr]
    by_cases hs : ∃ i e, a = .store i e
    · obtain ⟨i, e, rfl⟩ := hs
      by_cases hi : id = i
      · subst hi
        have : sh'.world.get id = e := by cases ha; exact set_get_same _ _ _
        rw [this]
        exact .inr ⟨_, t, [], rfl, by simp⟩
      · have : sh'.world.get id = sh.world.get id := by cases ha; exact set_get_other _ _ hi
        rw [this]
        refine source_snoc (h.now id) fun e' he => ?_
        simp only [Act.store.injEq] at he
        exact hi he.1.symm
    · rw [acts_get ha (fun i e hh => hs ⟨i, e, hh⟩)]
      exact source_snoc (h.now id) fun e he => hs ⟨id, e, he⟩
  · rw [htr] at he
    rcases split_snoc he with ⟨rfl, e, -⟩ | ⟨post', e⟩
    · obtain ⟨rfl, rfl⟩ := Prod.mk.inj e
      have hc : c = sh.world.get id := by cases ha; rfl
      rw [hc]; exact h.now id
    · exact h.loads pre u id c post' e

theorem seen_snoc {start : (id : CacheId) → Entry (CVal id)} {sh sh' : Shared σ} {x : Tid × Act}
    (h : Seen start sh) (hw : ∀ id, sh'.world.get id = sh.world.get id)
    (ht : sh'.trace = sh.trace ++ [x]) (hs : ∀ id e, x.2 ≠ .store id e)
    (hl : ∀ id e, x.2 ≠ .load id e) : Seen start sh' := by
  refine ⟨fun id => ?_, fun pre u id c post he => ?_⟩
  · rw [hw, ht]; exact source_snoc (h.now id) (hs id)
  · rw [ht] at he
    rcases split_snoc he with ⟨rfl, e, -⟩ | ⟨post', e⟩
    · subst e; exact absurd rfl (hl id c)
    · exact h.loads pre u id c post' e

theorem seen_of_reachable {S : Setup σ} {w : World σ} {s : Sys σ}
    (h : Reachable S (Sys.initial w) s) : Seen (fun id => w.get id) s.sh := by
  induction h with
  | start => exact ⟨fun id => .inl ⟨rfl, by simp [Sys.initial]⟩, by
      intro pre t id c post he; simp [Sys.initial] at he⟩
  | step _ hs ih =>
    cases hs with
    | work hw =>
      cases hw with
      | client i c a p sh h1 h2 h3 => exact seen_act ih h3
      | worker a p sh h1 h2 => exact seen_act ih h2
      | flush i c t p h1 h2 h3 =>
        exact seen_snoc (x := (.client i, .sendFlush t)) ih (fun _ => rfl) rfl (by simp) (by simp)
      | flushed i c b p q h1 h2 h3 =>
        rename_i s0 _
        have h1 : Seen (fun id => w.get id) { s0.sh with
            trace := s0.sh.trace ++ [(.worker, .sendFlushed b)] } :=
          seen_snoc (x := (.worker, .sendFlushed b)) ih (fun _ => rfl) rfl (by simp) (by simp)
        exact seen_snoc (x := (.client i, .recvFlushed b)) h1 (fun id => by cases id <;> rfl)
          (by simp) (by simp) (by simp)
    | tick k hk => exact ih
    | arrive c hc => exact ih
    | environment line ns he => exact ⟨fun id => by have := ih.now id; cases id <;> exact this, ih.loads⟩

/-! ## Reading the end of a trace alone -/

theorem snocInd {α : Type} {P : List α → Prop} (l : List α) (nil : P [])
    (snoc : ∀ b x, P b → P (b ++ [x])) : P l := by
  suffices h : ∀ l : List α, P l.reverse by simpa using h l.reverse
  intro l
  induction l with
  | nil => exact nil
  | cons x l ih => rw [List.reverse_cons]; exact snoc _ _ ih

theorem scanEv_begin (id : CacheId) (x : Option (CVal id × Int)) (c : Cur) (i : CacheId) (t : Int) :
    (scanEv id (x, c) (.refresh i t)).2 = if i = id then .begun t else .idle := by
  cases c <;> rfl

/-- Whoever is under way when only the end is read, is so when all is read. -/
theorem scan_tail_cur (id : CacheId) (a b : List (Tid × Act)) (u : Tid) :
    (scanAll id b).2 u = .idle ∨ (scanAll id b).2 u = (scanAll id (a ++ b)).2 u := by
  induction b using snocInd with
  | nil => exact .inl rfl
  | snoc b x ih =>
    rw [← List.append_assoc, scanAll_snoc, scanAll_snoc]
    obtain ⟨t, act⟩ := x
    unfold scanAct
    simp only
    match e : evOf act with
    | none => simpa only [e] using ih
    | some ev =>
      simp only
      by_cases hu : u = t
      · subst hu
        simp only [if_pos]
        rcases ih with h | h
        · rw [h]
          rcases scanEv_idle id (scanAll id b).1 ev with h' | ⟨ts, rfl⟩
          · rw [h']; exact .inl rfl
          · rw [scanEv_begin, scanEv_begin]; exact .inr rfl
        · rw [h]
          exact .inr (scanEv_snd id _ _ _ ev)
      · simp only [if_neg hu]; exact ih

theorem scan_tail_idle {id : CacheId} {a b : List (Tid × Act)}
    (h : ∀ u, (scanAll id (a ++ b)).2 u = .idle) (u : Tid) : (scanAll id b).2 u = .idle := by
  rcases scan_tail_cur id a b u with h' | h'
  · exact h'
  · rw [h', h]

/-- From a moment on at which no refresh is under way, reading the rest alone gives the same. -/
theorem scan_from_idle {id : CacheId} {a : List (Tid × Act)} (h : ∀ u, (scanAll id a).2 u = .idle)
    (b : List (Tid × Act)) : (∀ u, (scanAll id (a ++ b)).2 u = (scanAll id b).2 u) ∧
      (scanAll id (a ++ b)).1 =
        match (scanAll id b).1 with | some v => some v | none => (scanAll id a).1 := by
  induction b using snocInd with
  | nil => exact ⟨fun u => by rw [List.append_nil]; exact h u, by simp [scanAll]⟩
  | snoc b x ih =>
    obtain ⟨ih1, ih2⟩ := ih
    rw [← List.append_assoc, scanAll_snoc, scanAll_snoc]
    obtain ⟨t, act⟩ := x
    unfold scanAct
    simp only
    match e : evOf act with
    | none => exact ⟨ih1, ih2⟩
    | some ev =>
      simp only
      refine ⟨fun u => ?_, ?_⟩
      · by_cases hu : u = t
        · subst hu; simp only [if_pos]; rw [ih1]; exact scanEv_snd id _ _ _ ev
        · simp only [if_neg hu]; exact ih1 u
      · rw [ih1]
        rcases scanEv_fst id ((scanAll id b).2 t) ev with h1 | ⟨v, h1⟩
        · rw [h1, h1]; exact ih2
        · rw [h1, h1]

theorem scan_some_mono {id : CacheId} {a : List (Tid × Act)} (h : (scanAll id a).1.isSome)
    (b : List (Tid × Act)) : (scanAll id (a ++ b)).1.isSome := by
  induction b using snocInd with
  | nil => simpa using h
  | snoc b x ih =>
    rw [← List.append_assoc, scanAll_snoc]
    obtain ⟨t, act⟩ := x
    unfold scanAct
    simp only
    match e : evOf act with
    | none => simpa only [e] using ih
    | some ev =>
      simp only
      rcases scanEv_fst id ((scanAll id (a ++ b)).2 t) ev with h1 | ⟨v, h1⟩
      · rw [h1]; exact ih
      · rw [h1]; rfl

/-- What one goroutine's own actions bring, the whole trace brings. -/
theorem scan_own (id : CacheId) (t : Tid) (tr : List (Tid × Act)) :
    (scanAll id tr).2 t = (((actsOf t tr).filterMap evOf).foldl (scanEv id) (none, .idle)).2 ∧
    ((((actsOf t tr).filterMap evOf).foldl (scanEv id) (none, .idle)).1.isSome →
      (scanAll id tr).1.isSome) := by
  induction tr using snocInd with
  | nil => exact ⟨rfl, by simp [actsOf]⟩
  | snoc tr x ih =>
    obtain ⟨ih1, ih2⟩ := ih
    rw [scanAll_snoc]
    obtain ⟨u, act⟩ := x
    by_cases hu : u = t
    · subst hu
      have ho : actsOf u (tr ++ [(u, act)]) = actsOf u tr ++ [act] := by simp [actsOf]
      rw [ho, List.filterMap_append]
      unfold scanAct
      simp only
      match e : evOf act with
      | none => simp only [e, List.filterMap_cons, List.filterMap_nil, List.append_nil]; exact ⟨ih1, ih2⟩
      | some ev =>
        simp only [e, List.filterMap_cons, List.filterMap_nil, List.foldl_append, List.foldl_cons,
          List.foldl_nil]
        refine ⟨?_, ?_⟩
        · simp only [if_pos]
          rw [ih1]
          exact scanEv_snd id _ _ _ ev
        · rw [ih1]
          generalize ((actsOf u tr).filterMap evOf).foldl (scanEv id) (none, .idle) = z at ih1 ih2 ⊢
          rcases scanEv_fst id z.2 ev with h1 | ⟨v, h1⟩
          · have := h1 z.1
            rw [show (z.1, z.2) = z from rfl] at this
            rw [this, h1]; exact ih2
          · exact fun _ => by rw [h1]; rfl
    · have ho : actsOf t (tr ++ [(u, act)]) = actsOf t tr := by simp [actsOf, hu]
      rw [ho]
      unfold scanAct
      simp only
      match e : evOf act with
      | none => exact ⟨ih1, ih2⟩
      | some ev =>
        simp only
        refine ⟨by rw [if_neg (Ne.symm hu)]; exact ih1, fun h => ?_⟩
        rcases scanEv_fst id ((scanAll id tr).2 u) ev with h1 | ⟨v, h1⟩
        · rw [h1]; exact ih2 h
        · rw [h1]; rfl

/-! ## A look after a refresh of one's own -/

/-- A goroutine refreshes a cache with success, and looks at it later, with or without the lock: what
it sees has been read from the unit by a query of somebody that began after any moment before its own
refresh. -/
theorem fresh_load {S : Setup σ} {w : World σ} {s : Sys σ} (h : Reachable S (Sys.initial w) s)
    {id : CacheId} {t : Tid} {old kept mine later post : List (Tid × Act)} {e c : Entry (CVal id)}
    (htr : s.sh.trace = old ++ kept ++ (t, .lock (.cache id)) :: mine ++ (t, .store id e) :: later ++
      (t, .load id c) :: post)
    (hmine : (((actsOf t mine).filterMap evOf).foldl (scanEv id) (none, .idle)).1.isSome) :
    ∃ p, p <+: kept ++ (t, .lock (.cache id)) :: mine ++ (t, .store id e) :: later ∧
      (scanAll id p).1 = some (c.val, c.last) := by
  obtain ⟨g, hi⟩ := inv3 h
  have hG : Glob3 (fun id => w.get id) g s.sh := hi.glob
  have hidle := hG.locks (old ++ kept) t id (mine ++ (t, .store id e) :: later ++
      (t, .load id c) :: post) (by rw [htr]; simp)
  have hidle' := scan_tail_idle hidle
  have key : ∀ rest, (scanAll id (old ++ kept ++ ((t, .lock (.cache id)) :: mine ++ rest))).1 =
      (scanAll id (kept ++ ((t, .lock (.cache id)) :: mine ++ rest))).1 := by
    intro rest
    have hs : (scanAll id ((t, Act.lock (.cache id)) :: mine)).1.isSome := by
      refine (scan_own id t _).2 ?_
      have : actsOf t ((t, Act.lock (.cache id)) :: mine) = .lock (.cache id) :: actsOf t mine := by
        simp [actsOf]
      rw [this]
      exact hmine
    have hs' := scan_some_mono hs rest
    rw [(scan_from_idle hidle _).2, (scan_from_idle hidle' _).2]
    cases h : (scanAll id ((t, Act.lock (.cache id)) :: mine ++ rest)).1 with
    | none => rw [h] at hs'; cases hs'
    | some v => rfl
  have hsrc := (seen_of_reachable h).loads (old ++ kept ++ (t, .lock (.cache id)) :: mine ++
    (t, .store id e) :: later) t id c post (by rw [htr])
  rcases hsrc with ⟨-, hn⟩ | ⟨pre, u, rest, hp, hn⟩
  · exact absurd (by simp) (hn t e)
  · have hst := hG.stores pre u id c (rest ++ (t, .load id c) :: post) (by rw [htr, hp]; simp)
    -- the last store is not before mine
    have : ∃ q, pre = old ++ kept ++ ((t, .lock (.cache id)) :: mine ++ q) ∧
        q <+: (t, Act.store id e) :: later := by
      rw [show old ++ kept ++ (t, Act.lock (.cache id)) :: mine ++ (t, .store id e) :: later =
        (old ++ kept ++ ((t, Act.lock (.cache id)) :: mine)) ++ (t, .store id e) :: later by simp] at hp
      rcases List.append_eq_append_iff.mp hp with ⟨as, e1, e2⟩ | ⟨cs, e1, e2⟩
      · exact ⟨as, by rw [e1]; simp, ⟨_, e2.symm⟩⟩
      · cases cs with
        | nil =>
          refine ⟨[], by simpa using e1.symm, List.nil_prefix⟩
        | cons y ys =>
          rw [List.cons_append, List.cons.injEq] at e2
          exact absurd (by rw [e2.2]; simp) (hn t e)
    obtain ⟨q, rfl, q', hq⟩ := this
    refine ⟨kept ++ ((t, .lock (.cache id)) :: mine ++ q), ⟨q', ?_⟩, by rw [← key]; exact hst⟩
    rw [← hq]; simp
end Comfo
