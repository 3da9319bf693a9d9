import Verif.Lemmas.Neutral
import Verif.Lemmas.Post
/-! Helper lemmas: the time stamps of the caches in all interleavings. -/
namespace Comfo
open Spec Props

/-- Ghost state: for each cache, whether its lock is held exclusively, and what the clock showed
since. -/
def G5 := CacheId → Option (Option Int)

def G5.quiet : G5 := fun _ => none

def must5 (g : G5) : Act → Prop
  | .store id e => g id = some (some e.last)
  | .note id t => g id = some (some t)
  | _ => True

def post5 (g : G5) : Act → G5
  | .lock (.cache i) => fun id => if id = i then some none else g id
  | .unlock (.cache i) => fun id => if id = i then none else g id
  | .now t => fun id => (g id).map fun _ => some t
  | _ => g

def R5 : Rules G5 where
  must := must5
  post := post5

theorem r5_query {Q : G5 → Packet × Option Err → Prop} {g : G5} (p : Packet)
    (hQ : ∀ q e, (e = none → p.expect = true → q.command = p.command + 1) → Q g (q, e)) :
    (queryPacketP p).Ok R5 Q g := by
  unfold queryPacketP
  refine fun _ => ⟨trivial, ?_⟩
  show Prog.Ok R5 Q _ g
  split
  · exact fun _ => ⟨trivial, hQ _ _ (by simp)⟩
  · rintro ⟨n, err⟩ -
    refine ⟨trivial, ?_⟩
    show Prog.Ok R5 Q _ g
    cases err with
    | some e => exact fun _ => ⟨trivial, hQ _ _ (by simp)⟩
    | none =>
      rintro ⟨q, err⟩ -
      refine ⟨trivial, ?_⟩
      show Prog.Ok R5 Q _ g
      cases err with
      | some e => exact fun _ => ⟨trivial, hQ _ _ (by simp)⟩
      | none =>
        by_cases hc : p.expect = true ∧ q.command ≠ p.command + 1
        · simp only [if_pos hc]
          exact fun _ => ⟨trivial, hQ _ _ (by simp)⟩
        · have hc' : p.expect = true → q.command = p.command + 1 := by
            intro h
            by_cases h2 : q.command = p.command + 1
            · exact h2
            · exact absurd ⟨h, h2⟩ hc
          simp only [if_neg hc]
          rintro ⟨m, err⟩ -
          refine ⟨trivial, ?_⟩
          show Prog.Ok R5 Q _ g
          cases err with
          | some e => exact fun _ => ⟨trivial, hQ _ _ (by simp)⟩
          | none => exact fun _ => ⟨trivial, hQ _ _ fun _ => hc'⟩

theorem quiet5_locked (id : CacheId) (x : Option Int) :
    post5 (fun i => if i = id then some x else none) (.unlock (.cache id)) = G5.quiet := by
  funext i
  show (if i = id then none else if i = id then some x else none) = none
  by_cases h : i = id <;> simp [h]

theorem r5_update {Q : G5 → Unit → Prop} (id : CacheId) (force : Bool) (hQ : Q G5.quiet ()) :
    (update id force).Ok R5 Q G5.quiet := by
  have hu : ∀ x : Option Int, (Prog.unlock (.cache id) (.ret ())).Ok R5 Q
      (fun i => if i = id then some x else none) := by
    intro x _
    refine ⟨trivial, ?_⟩
    show Q (post5 _ (.unlock (.cache id))) ()
    rw [quiet5_locked]; exact hQ
  have refresh : ∀ now, (Prog.note id now <| id.fetch.bind fun (v, err) =>
      match err with
      | none => .store id { val := v, last := now } <| .unlock (.cache id) <| .ret ()
      | some _ => .unlock (.cache id) <| .ret ()).Ok R5 Q
        (fun i => if i = id then some (some now) else none) := by
    intro now _
    refine ⟨if_pos rfl, ok_bind (ok_fetch id (r5_query _ ?_))⟩
    rintro q e h
    refine ⟨fun he => h he rfl, fun v e' _ _ => ?_⟩
    cases e' with
    | none => exact fun _ => ⟨if_pos rfl, hu _⟩
    | some _ => exact hu _
  unfold update
  refine fun _ => ⟨trivial, fun now _ => ⟨trivial, ?_⟩⟩
  have e : R5.post (R5.post G5.quiet (.lock (.cache id))) (.now now) =
      fun i => if i = id then some (some now) else none := by
    funext i
    show Option.map _ (if i = id then some none else none) = _
    by_cases h : i = id <;> simp [h]
  rw [e]
  cases force with
  | true => exact refresh now
  | false =>
    refine fun c _ => ⟨trivial, ?_⟩
    by_cases hs : (!isStale c.last now) = true
    · simp only [hs, if_true]; exact hu _
    · simp only [hs]; exact refresh now

theorem neutral5 : Neutral R5 G5.quiet where
  plain a ha := by
    cases a with
    | lock l => cases l <;> first | exact ⟨trivial, rfl⟩ | exact absurd ha (by simp [Plain])
    | unlock l => cases l <;> first | exact ⟨trivial, rfl⟩ | exact absurd ha (by simp [Plain])
    | store i e => exact absurd ha (by simp [Plain])
    | note i ts => exact absurd ha (by simp [Plain])
    | _ => exact ⟨trivial, rfl⟩
  peek id k Q hk := fun _ => ⟨trivial, fun c _ => ⟨trivial, fun _ => ⟨trivial, hk c⟩⟩⟩
  query p Q hQ := r5_query p hQ
  upd id force Q hQ := r5_update id force hQ
  proto id conv Q hQ := by
    refine fun _ => ⟨trivial, fun _ _ => ⟨trivial, fun _ => ⟨trivial, ?_⟩⟩⟩
    have : post5 (post5 G5.quiet (.lock (.cache id))) (.unlock (.cache id)) = G5.quiet :=
      quiet5_locked id none
    show Q (post5 (post5 G5.quiet (.lock (.cache id))) (.unlock (.cache id))) _
    rw [this]; exact hQ _

theorem post5_cases (g : G5) (a : Act) :
    (∃ i, a = .lock (.cache i) ∧ post5 g a i = some none ∧ ∀ id, id ≠ i → post5 g a id = g id) ∨
    (∃ i, a = .unlock (.cache i) ∧ post5 g a i = none ∧ ∀ id, id ≠ i → post5 g a id = g id) ∨
    (∃ ts, a = .now ts ∧ ∀ id, post5 g a id = (g id).map fun _ => some ts) ∨
    (post5 g a = g ∧ (∀ i, a ≠ .unlock (.cache i)) ∧ ∀ ts, a ≠ .now ts) := by
  cases a with
  | lock l =>
    cases l with
    | cache i => exact .inl ⟨i, rfl, if_pos rfl, fun id h => if_neg h⟩
    | _ => exact .inr (.inr (.inr ⟨rfl, by simp, by simp⟩))
  | unlock l =>
    cases l with
    | cache i => exact .inr (.inl ⟨i, rfl, if_pos rfl, fun id h => if_neg h⟩)
    | _ => exact .inr (.inr (.inr ⟨rfl, by simp, by simp⟩))
  | now ts => exact .inr (.inr (.inl ⟨ts, rfl, fun _ => rfl⟩))
  | _ => exact .inr (.inr (.inr ⟨rfl, by simp, by simp⟩))

/-- The time stamp an action has read or written. -/
def stampOf (id : CacheId) : Act → Option Int
  | .load i c => if i = id then some c.last else none
  | .store i c => if i = id then some c.last else none
  | _ => none

/-- Where the time stamps stand. -/
structure Glob5 (g : Tid → G1 × G5) (sh : Shared σ) : Prop where
  base : Glob1 (fun t => (g t).1) sh
  past : ∀ id, (sh.world.get id).last ≤ sh.world.clock
  own : ∀ id t, (g t).2 id ≠ none → (.cache id, true) ∈ (g t).1.held
  time : ∀ id t ts, (g t).2 id = some (some ts) →
    (sh.world.get id).last ≤ ts ∧ ts ≤ sh.world.clock
  seen : ∀ id t a l, (t, a) ∈ sh.trace → stampOf id a = some l → l ≤ (sh.world.get id).last
  mono : ∀ id pre t c post, sh.trace = pre ++ (t, .load id c) :: post →
    ∀ u a l, (u, a) ∈ pre → stampOf id a = some l → l ≤ c.last
  noted : ∀ t id ts, (t, .note id ts) ∈ sh.trace → ts ≤ sh.world.clock

theorem fst_upd5 (g : Tid → G1 × δ) (t : Tid) (x : G1 × δ) :
    (fun u => (upd g t x u).1) = upd (fun u => (g u).1) t x.1 := by
  funext u
  by_cases h : u = t
  · subst h; rw [upd_same, upd_same]
  · rw [upd_other _ _ h, upd_other _ _ h]

theorem acts_clock {L : Line σ} {t : Tid} {a : Act} {sh sh' : Shared σ} (h : Acts L t a sh sh') :
    sh.world.clock ≤ sh'.world.clock := by
  have set_clock : ∀ (w : World σ) (id : CacheId) (e : Entry (CVal id)), (w.set id e).clock = w.clock := by
    intro w id e; cases id <;> rfl
  cases h with
  | now => simp only [World.tick]; omega
  | sleep => simp only; omega
  | store => rw [set_clock]; exact Int.le_refl _
  | _ => exact Int.le_refl _

theorem get_set_same (w : World σ) (id : CacheId) (e : Entry (CVal id)) : (w.set id e).get id = e := by
  cases id <;> rfl

theorem get_set_other (w : World σ) {id i : CacheId} (e : Entry (CVal i)) (h : id ≠ i) :
    (w.set i e).get id = w.get id := by
  cases id <;> cases i <;> first | rfl | exact absurd rfl h

theorem glob5_act {L : Line σ} {g : Tid → G1 × G5} {t : Tid} {a : Act} {sh sh' : Shared σ}
    (h : Glob5 g sh) (ha : Acts L t a sh sh') (hm : (R1.prod R5).must (g t) a) :
    Glob5 (upd g t ((R1.prod R5).post (g t) a)) sh' := by
  obtain ⟨hm1, hm5⟩ := hm
  have htr := acts_trace ha
  have hcl := acts_clock ha
  have at1 : (upd g t ((R1.prod R5).post (g t) a) t).1 = post1 (g t).1 a := by rw [upd_same]; rfl
  have at5 : (upd g t ((R1.prod R5).post (g t) a) t).2 = post5 (g t).2 a := by rw [upd_same]; rfl
  have off : ∀ u, u ≠ t → upd g t ((R1.prod R5).post (g t) a) u = g u :=
    fun u hu => upd_other _ _ hu
  generalize hg' : upd g t ((R1.prod R5).post (g t) a) = g' at *
  have hbase : Glob1 (fun u => (g' u).1) sh' := by
    rw [← hg', fst_upd5]
    exact glob1_act (g := fun u => (g u).1) h.base ha hm1
  have alone : ∀ id u, u ≠ t → (g u).2 id ≠ none → ∀ b, (Lock.cache id, b) ∉ (g t).1.held := by
    intro id u hu hq b hb
    have h1 := (h.base.held_iff u _ _).1 (h.own id u hq)
    have h2 := (h.base.held_iff t _ _).1 hb
    have := h.base.excl _ h1 _ h2 rfl rfl
    simp only [Held.mk.injEq] at this
    exact hu this.2.2
  -- time stamps grow
  have grow : ∀ id, (sh.world.get id).last ≤ (sh'.world.get id).last ∧
      (sh'.world.get id).last ≤ sh'.world.clock := by
    intro id
    by_cases hs : ∃ i e, a = .store i e
    · obtain ⟨i, e, rfl⟩ := hs
      have hw : sh'.world = sh.world.set i e := by cases ha; rfl
      by_cases hi : id = i
      · subst hi
        have := h.time id t e.last hm5
        rw [hw, get_set_same]
        rw [hw] at hcl
        exact ⟨this.1, Int.le_trans this.2 hcl⟩
      · rw [hw, get_set_other _ _ hi]
        rw [hw] at hcl
        exact ⟨Int.le_refl _, Int.le_trans (h.past id) hcl⟩
    · rw [acts_get ha fun i e he => hs ⟨i, e, he⟩]
      exact ⟨Int.le_refl _, Int.le_trans (h.past id) hcl⟩
  -- a time stamp in the action is not newer than the cache
  have mine : ∀ id l, stampOf id a = some l → l ≤ (sh'.world.get id).last := by
    intro id l hl
    cases a with
    | load i c =>
      by_cases hi : i = id
      · subst hi
        have hc : c = sh.world.get i := by cases ha; rfl
        simp only [stampOf, if_true, Option.some.injEq] at hl
        rw [← hl, hc]; exact (grow i).1
      · simp [stampOf, hi] at hl
    | store i e =>
      by_cases hi : i = id
      · subst hi
        have hw : sh'.world = sh.world.set i e := by cases ha; rfl
        simp only [stampOf, if_true, Option.some.injEq] at hl
        rw [← hl, hw, get_set_same]; exact Int.le_refl _
      · simp [stampOf, hi] at hl
    | _ => cases hl
  refine { base := hbase, past := fun id => (grow id).2, own := ?_, time := ?_, seen := ?_, mono := ?_, noted := ?_ }
  · intro id u hq
    by_cases hu : u = t
    · subst hu
      rw [at1]
      rw [at5] at hq
      have keep : (g u).2 id ≠ none → a ≠ .unlock (.cache id) →
          (Lock.cache id, true) ∈ (post1 (g u).1 a).held :=
        fun h1 h2 => held_keep_excl (h.own id u h1) h2
      rcases post5_cases (g u).2 a with ⟨i, rfl, e1, e2⟩ | ⟨i, rfl, e1, e2⟩ | ⟨ts, rfl, e⟩ | ⟨e, e', -⟩
      · by_cases hi : id = i
        · subst hi; exact List.mem_cons_self ..
        · exact keep (by rw [← e2 id hi]; exact hq) (by simp)
      · by_cases hi : id = i
        · subst hi; exact absurd e1 hq
        · exact keep (by rw [← e2 id hi]; exact hq) (by simp; exact fun h => hi h.symm)
      · refine keep (fun h0 => hq ?_) (by simp)
        rw [e, h0]; rfl
      · exact keep (by rw [← e]; exact hq) (e' id)
    · rw [off u hu] at hq ⊢; exact h.own id u hq
  · intro id u ts hts
    by_cases hu : u = t
    · subst hu
      rw [at5] at hts
      have same : (g u).2 id = some (some ts) → (∀ e : Entry (CVal id), a ≠ .store id e) →
          (sh'.world.get id).last ≤ ts ∧ ts ≤ sh'.world.clock := by
        intro h1 h2
        have h3 := h.time id u ts h1
        have : sh'.world.get id = sh.world.get id := by
          by_cases hs : ∃ i e, a = .store i e
          · obtain ⟨i, e, rfl⟩ := hs
            have hw : sh'.world = sh.world.set i e := by cases ha; rfl
            by_cases hi : id = i
            · subst hi; exact absurd rfl (h2 e)
            · rw [hw, get_set_other _ _ hi]
          · exact acts_get ha (fun i e he => hs ⟨i, e, he⟩) id
        rw [this]
        exact ⟨h3.1, Int.le_trans h3.2 hcl⟩
      rcases post5_cases (g u).2 a with ⟨i, rfl, e1, e2⟩ | ⟨i, rfl, e1, e2⟩ | ⟨t', rfl, e⟩ | ⟨e, -, -⟩
      · by_cases hi : id = i
        · subst hi; rw [e1] at hts; simp at hts
        · exact same (by rw [← e2 id hi]; exact hts) (by simp)
      · by_cases hi : id = i
        · subst hi; rw [e1] at hts; simp at hts
        · exact same (by rw [← e2 id hi]; exact hts) (by simp)
      · rw [e] at hts
        have ht : t' = ts := by
          cases hx : (g u).2 id with
          | none => rw [hx] at hts; cases hts
          | some y => rw [hx] at hts; simpa using hts
        subst ht
        have h1 : t' = sh'.world.clock := by cases ha; rfl
        exact ⟨h1 ▸ (grow id).2, Int.le_of_eq h1⟩
      · rw [e] at hts
        by_cases hs : ∃ e : Entry (CVal id), a = .store id e
        · clear e
          obtain ⟨e, rfl⟩ := hs
          have hw : sh'.world = sh.world.set id e := by cases ha; rfl
          have h2 : (g u).2 id = some (some e.last) := hm5
          rw [hts] at h2
          obtain rfl : ts = e.last := by simpa using h2
          have h3 := h.time id u _ hts
          rw [hw, get_set_same]
          rw [hw] at hcl
          exact ⟨Int.le_refl _, Int.le_trans h3.2 hcl⟩
        · exact same hts fun e he => hs ⟨e, he⟩
    · rw [off u hu] at hts
      have h3 := h.time id u ts hts
      have : sh'.world.get id = sh.world.get id := by
        by_cases hs : ∃ i e, a = .store i e
        · obtain ⟨i, e, rfl⟩ := hs
          have hw : sh'.world = sh.world.set i e := by cases ha; rfl
          by_cases hi : id = i
          · subst hi
            exact absurd hm1.2.1 (alone id u hu (by rw [hts]; simp) true)
          · rw [hw, get_set_other _ _ hi]
        · exact acts_get ha (fun i e he => hs ⟨i, e, he⟩) id
      rw [this]
      exact ⟨h3.1, Int.le_trans h3.2 hcl⟩
  · intro id u b l hmem hl
    rw [htr, List.mem_append] at hmem
    rcases hmem with hmem | hmem
    · exact Int.le_trans (h.seen id u b l hmem hl) (grow id).1
    · simp only [List.mem_singleton, Prod.mk.injEq] at hmem
      rw [hmem.2] at hl
      exact mine id l hl
  · intro id pre u c post he v b l hmem hl
    rw [htr] at he
    rcases split_snoc he with ⟨rfl, e, -⟩ | ⟨post', e⟩
    · obtain ⟨rfl, rfl⟩ := Prod.mk.inj e
      have hc : c = sh.world.get id := by cases ha; rfl
      rw [hc]
      exact h.seen id v b l hmem hl
    · exact h.mono id pre u c post' e v b l hmem hl
  · intro u id ts hmem
    rw [htr, List.mem_append] at hmem
    rcases hmem with hmem | hmem
    · exact Int.le_trans (h.noted u id ts hmem) hcl
    · simp only [List.mem_singleton, Prod.mk.injEq] at hmem
      obtain ⟨rfl, rfl⟩ := hmem
      exact Int.le_trans (h.time id u ts hm5).2 hcl

/-- Channel steps: nothing this is about changes. -/
theorem glob5_channel {g g' : Tid → G1 × G5} {sh sh' : Shared σ} {ext : List (Tid × Act)}
    (h : Glob5 g sh) (hb : Glob1 (fun t => (g' t).1) sh') (ht : sh'.trace = sh.trace ++ ext)
    (hx : ∀ x ∈ ext, (∃ v, x.2 = .sendFlush v) ∨ (∃ b, x.2 = .sendFlushed b) ∨
      ∃ b, x.2 = .recvFlushed b)
    (hg : ∀ id, sh'.world.get id = sh.world.get id) (hc : sh.world.clock ≤ sh'.world.clock)
    (h1 : ∀ t, (g' t).1.held = (g t).1.held) (h2 : ∀ t, (g' t).2 = (g t).2) :
    Glob5 g' sh' where
  base := hb
  past id := by rw [hg]; exact Int.le_trans (h.past id) hc
  own id t := by rw [h1, h2]; exact h.own id t
  time id t ts hts := by
    rw [h2] at hts
    have := h.time id t ts hts
    rw [hg]
    exact ⟨this.1, Int.le_trans this.2 hc⟩
  seen id t a l hm hl := by
    rw [hg]
    rw [ht, List.mem_append] at hm
    rcases hm with hm | hm
    · exact h.seen id t a l hm hl
    · rcases hx _ hm with ⟨v, hv⟩ | ⟨v, hv⟩ | ⟨v, hv⟩ <;>
        (simp only at hv; rw [hv] at hl; cases hl)
  mono id pre t c post he := by
    rw [ht] at he
    have : ∃ post', sh.trace = pre ++ (t, .load id c) :: post' := by
      have no : (t, Act.load id c) ∉ ext := by
        intro hmem
        rcases hx _ hmem with ⟨v, hv⟩ | ⟨v, hv⟩ | ⟨v, hv⟩ <;> cases hv
      rcases List.append_eq_append_iff.mp he with ⟨as, -, e⟩ | ⟨cs, e1, e2⟩
      · exact absurd (by rw [e]; simp) no
      · cases cs with
        | nil => exact absurd (by rw [← show _ = ext from e2]; simp) no
        | cons y ys => rw [List.cons_append, List.cons.injEq] at e2; exact ⟨ys, by rw [e1, e2.1]⟩
    obtain ⟨post', e⟩ := this
    exact h.mono id pre t c post' e
  noted t id ts hm := by
    rw [ht, List.mem_append] at hm
    rcases hm with hm | hm
    · exact Int.le_trans (h.noted t id ts hm) hc
    · rcases hx _ hm with ⟨v, hv⟩ | ⟨v, hv⟩ | ⟨v, hv⟩ <;> cases hv

theorem glob5_start (w : World σ) (g : Tid → G1 × G5)
    (hw : g .worker = (idle1, G5.quiet)) (hc : ∀ i, g (.client i) = ({}, G5.quiet))
    (h : ∀ id, (w.get id).last ≤ w.clock) : Glob5 g ({ world := w } : Shared σ) where
  base := glob1_start w _ (by rw [hw]) fun i => by rw [hc]
  past := h
  own := by
    intro id t hq
    cases t with
    | worker => rw [hw] at hq; exact absurd rfl hq
    | client i => rw [hc] at hq; exact absurd rfl hq
  time := by
    intro id t ts hq
    cases t with
    | worker => rw [hw] at hq; cases hq
    | client i => rw [hc] at hq; cases hq
  seen := by intro id t a l hm; cases hm
  mono := by intro id pre t c post he; simp at he
  noted := by intro t id ts hm; cases hm

/-- The rules and the invariant. -/
def scheme5 (S : Setup σ) : Scheme S (G1 × G5) where
  R := R1.prod R5
  Q c g r := Returns c g.1 r ∧ g.2 = G5.quiet
  unborn := ({}, G5.quiet)
  born c := (born1 c, G5.quiet)
  idle := (idle1, G5.quiet)
  flushing t := (flushing1 t, G5.quiet)
  K c g := K1 c g.1
  k_born c := ⟨rfl, rfl, rfl⟩
  k_post := k1_post
  G := Glob5
  ok_call c _ := ok_prod (ok_call1 S.cv c) (neutral5.call S.cv c)
  ok_tick k := ok_mono (ok_prod ((scheme1 S).ok_tick k)
    (neutral5.onTick (Q := fun g _ => g = _) k rfl)) (fun _ _ h => Prod.ext h.1 h.2)
  ok_flush t := ok_mono (ok_prod ((scheme1 S).ok_flush t)
    (neutral5.flushCaches (Q := fun g _ => g = _) t rfl)) (fun _ _ h => Prod.ext h.1 h.2)
  may_act _ ha := ⟨may1_act ha, trivial⟩
  g_act := glob5_act
  g_env {g sh line ns} h _ :=
    glob5_channel (ext := []) h (glob_congr h.base (fun _ => sameCore_refl _) rfl rfl) (by simp)
      (by simp) (fun id => by cases id <;> rfl) (by simp only; omega) (fun _ => rfl) (fun _ => rfl)
  g_born {g sh c i} h _ hi := by
    refine glob5_channel (ext := []) h ?_ (by simp) (by simp) (fun _ => rfl) (Int.le_refl _) ?_ ?_
    · rw [fst_upd5]; exact glob1_born h.base (by rw [hi])
    · intro t
      by_cases e : t = .client i
      · subst e; rw [upd_same, hi]; rfl
      · rw [upd_other _ _ e]
    · intro t
      by_cases e : t = .client i
      · subst e; rw [upd_same, hi]
      · rw [upd_other _ _ e]
  may_send _ _ := ⟨trivial, trivial⟩
  g_send {g sh i t} h hw hm := by
    refine glob5_channel (ext := [(.client i, .sendFlush t)]) h ?_ rfl (by simp) (fun _ => rfl)
      (Int.le_refl _) ?_ ?_
    · rw [fst_upd5, fst_upd5]
      exact glob1_send h.base (by rw [hw]) hm.1
    · intro u
      by_cases e : u = .worker
      · subst e; rw [upd_same, hw]; rfl
      · rw [upd_other _ _ e]
        by_cases e : u = .client i
        · subst e; rw [upd_same]; rfl
        · rw [upd_other _ _ e]
    · intro u
      by_cases e : u = .worker
      · subst e; rw [upd_same, hw]
      · rw [upd_other _ _ e]
        by_cases e : u = .client i
        · subst e; rw [upd_same]; rfl
        · rw [upd_other _ _ e]
  may_answer _ := ⟨trivial, trivial⟩
  may_recv h hm _ := ⟨may1_recv h.base hm.1, trivial⟩
  g_recv {g sh i b} h hm hr := by
    refine glob5_channel (ext := [(.worker, .sendFlushed b), (.client i, .recvFlushed b)]) h ?_ rfl
      (by simp) (fun id => by cases id <;> rfl) (Int.le_refl _) ?_ ?_
    · rw [fst_upd5, fst_upd5]
      exact glob1_recv h.base hm.1 hr.1
    · intro u
      by_cases e : u = .worker
      · subst e; rw [upd_same]; rfl
      · rw [upd_other _ _ e]
        by_cases e : u = .client i
        · subst e; rw [upd_same]; rfl
        · rw [upd_other _ _ e]
    · intro u
      by_cases e : u = .worker
      · subst e; rw [upd_same]; rfl
      · rw [upd_other _ _ e]
        by_cases e : u = .client i
        · subst e; rw [upd_same]; rfl
        · rw [upd_other _ _ e]

theorem inv5 {S : Setup σ} {w : World σ} (hw : ∀ id, (w.get id).last ≤ w.clock) {s : Sys σ}
    (h : Reachable S (Sys.initial w) s) : ∃ g, (scheme5 S).Inv g s :=
  (scheme5 S).sound (glob5_start w _ rfl (fun _ => rfl) hw) h

/-! ## What the worker does after a tick -/

/-- What an update that is not forced looks at: the clock, and then either a recent time stamp or
the unit. -/
theorem post_unforced (id : CacheId) : (update id false).Post fun acts _ =>
    ∃ ts, .now ts ∈ acts ∧
      ((∃ c, .load id c ∈ acts ∧ ts - 4500000000 ≤ c.last) ∨ .note id ts ∈ acts) := by
  unfold update
  simp only [Prog.Post, Bool.false_eq_true, if_false]
  intro ts c
  by_cases hs : isStale c.last ts = true
  · simp only [hs, Bool.not_true, Bool.false_eq_true, if_false]
    have h := post_refresh id ts
    refine h.mono ?_
    rintro as _ ⟨qa, q, e, -, h⟩
    refine ⟨ts, by simp, .inr ?_⟩
    rw [h]; simp
  · have h1 : ¬ ts - c.last > 4500000000 := fun h => hs ((isStale_iff c.last ts).2 h)
    have h2 : isStale c.last ts = false := by simpa using hs
    simp only [h2, Bool.not_false, if_true, Prog.Post]
    exact ⟨ts, by simp, .inl ⟨c, by simp, by omega⟩⟩

/-- All actions since `s₁`: the clock has moved on, and the worker has finished what it was doing or
is still at it. -/
theorem since {S : Setup σ} {s₁ s₂ : Sys σ} (h : Reachable S s₁ s₂) :
    ∃ ext, s₂.sh.trace = s₁.sh.trace ++ ext ∧ s₁.sh.world.clock ≤ s₂.sh.world.clock ∧
      (∀ t ts, (t, .now ts) ∈ ext → s₁.sh.world.clock ≤ ts) ∧
      (Path s₁.worker (actsOf .worker ext) s₂.worker ∨
        ∃ as bs, actsOf .worker ext = as ++ bs ∧ Path s₁.worker as (.ret ())) := by
  induction h with
  | start => exact ⟨[], by simp, Int.le_refl _, by simp, .inl .nil⟩
  | @step s s' _ hs ih =>
    obtain ⟨ext, h1, h2, h3, h4⟩ := ih
    have act : ∀ {t a sh'}, Acts S.line t a s.sh sh' →
        s₁.sh.world.clock ≤ sh'.world.clock ∧ sh'.trace = s₁.sh.trace ++ (ext ++ [(t, a)]) ∧
        (∀ u ts, (u, .now ts) ∈ ext ++ [(t, a)] → s₁.sh.world.clock ≤ ts) := by
      intro t a sh' ha
      have hc := Int.le_trans h2 (acts_clock ha)
      refine ⟨hc, by rw [acts_trace ha, h1, List.append_assoc], ?_⟩
      intro u ts hm
      rw [List.mem_append, List.mem_singleton, Prod.mk.injEq] at hm
      rcases hm with hm | ⟨-, rfl⟩
      · exact h3 u ts hm
      · have : ts = sh'.world.clock := by cases ha; rfl
        rw [this]; exact hc
    cases hs with
    | work hw =>
      cases hw with
      | client i c a p sh _ _ ha =>
        obtain ⟨e1, e2, e3⟩ := act ha
        refine ⟨_, e2, e1, e3, ?_⟩
        have : actsOf .worker (ext ++ [(.client i, a)]) = actsOf .worker ext := by
          simp [actsOf]
        rw [this]; exact h4
      | worker a p sh hn ha =>
        obtain ⟨e1, e2, e3⟩ := act ha
        refine ⟨_, e2, e1, e3, ?_⟩
        have : actsOf .worker (ext ++ [(.worker, a)]) = actsOf .worker ext ++ [a] := by
          simp [actsOf]
        rw [this]
        rcases h4 with h4 | ⟨as, bs, h4, h5⟩
        · exact .inl (h4.snoc hn)
        · exact .inr ⟨as, bs ++ [a], by rw [h4, List.append_assoc], h5⟩
      | flush i c t p _ _ hwk =>
        refine ⟨ext ++ [(.client i, .sendFlush t)], by simp only; rw [h1, List.append_assoc], h2, ?_, ?_⟩
        · intro u ts hm
          rw [List.mem_append, List.mem_singleton, Prod.mk.injEq] at hm
          rcases hm with hm | ⟨-, hm⟩
          · exact h3 u ts hm
          · cases hm
        · have : actsOf .worker (ext ++ [(.client i, .sendFlush t)]) = actsOf .worker ext := by
            simp [actsOf]
          rw [this]
          rcases h4 with h4 | h4
          · exact .inr ⟨_, [], by simp, hwk ▸ h4⟩
          · exact .inr h4
      | flushed i c b p q _ _ hn =>
        refine ⟨ext ++ [(.worker, .sendFlushed b), (.client i, .recvFlushed b)],
          by simp only; rw [h1, List.append_assoc], h2, ?_, ?_⟩
        · intro u ts hm
          rw [List.mem_append] at hm
          rcases hm with hm | hm
          · exact h3 u ts hm
          · simp at hm
        · have : actsOf .worker (ext ++ [(.worker, .sendFlushed b), (.client i, .recvFlushed b)]) =
              actsOf .worker ext ++ [.sendFlushed b] := by
            simp [actsOf]
          rw [this]
          rcases h4 with h4 | ⟨as, bs, h4, h5⟩
          · exact .inl (h4.snoc hn)
          · exact .inr ⟨as, bs ++ [_], by rw [h4, List.append_assoc], h5⟩
    | tick k hwk =>
      refine ⟨ext, h1, h2, h3, ?_⟩
      rcases h4 with h4 | h4
      · exact .inr ⟨_, [], by simp, hwk ▸ h4⟩
      · exact .inr h4
    | arrive c hc => exact ⟨ext, h1, h2, h3, h4⟩
    | environment line ns he =>
      exact ⟨ext, h1, by simp only; omega, h3, h4⟩

/-- The times the clock has shown. -/
def RN : Rules (List Int) where
  must
    | g, .note _ ts => ts ∈ g
    | _, _ => True
  post
    | g, .now t => t :: g
    | g, _ => g

theorem rn_query {Q : List Int → Packet × Option Err → Prop} {g : List Int} (p : Packet)
    (hQ : ∀ q e, (e = none → p.expect = true → q.command = p.command + 1) → Q g (q, e)) :
    (queryPacketP p).Ok RN Q g := by
  unfold queryPacketP
  refine fun _ => ⟨trivial, ?_⟩
  show Prog.Ok RN Q _ g
  split
  · exact fun _ => ⟨trivial, hQ _ _ (by simp)⟩
  · rintro ⟨n, err⟩ -
    refine ⟨trivial, ?_⟩
    show Prog.Ok RN Q _ g
    cases err with
    | some e => exact fun _ => ⟨trivial, hQ _ _ (by simp)⟩
    | none =>
      rintro ⟨q, err⟩ -
      refine ⟨trivial, ?_⟩
      show Prog.Ok RN Q _ g
      cases err with
      | some e => exact fun _ => ⟨trivial, hQ _ _ (by simp)⟩
      | none =>
        by_cases hc : p.expect = true ∧ q.command ≠ p.command + 1
        · simp only [if_pos hc]
          exact fun _ => ⟨trivial, hQ _ _ (by simp)⟩
        · have hc' : p.expect = true → q.command = p.command + 1 := by
            intro h
            by_cases h2 : q.command = p.command + 1
            · exact h2
            · exact absurd ⟨h, h2⟩ hc
          simp only [if_neg hc]
          rintro ⟨m, err⟩ -
          refine ⟨trivial, ?_⟩
          show Prog.Ok RN Q _ g
          cases err with
          | some e => exact fun _ => ⟨trivial, hQ _ _ (by simp)⟩
          | none => exact fun _ => ⟨trivial, hQ _ _ fun _ => hc'⟩

theorem rn_updates (ids : List CacheId) (g : List Int) :
    (updates ids).Ok RN (fun _ _ => True) g := by
  induction ids generalizing g with
  | nil => trivial
  | cons id ids ih =>
    refine ok_bind ?_
    unfold update
    refine fun _ => ⟨trivial, fun now _ => ⟨trivial, ?_⟩⟩
    simp only [if_true]
    refine fun _ => ⟨List.mem_cons_self .., ok_bind (ok_fetch id (rn_query _ ?_))⟩
    rintro q e h
    refine ⟨fun he => h he rfl, fun v e' _ _ => ?_⟩
    cases e' with
    | none => exact fun _ => ⟨trivial, fun _ => ⟨trivial, ih _⟩⟩
    | some _ => exact fun _ => ⟨trivial, ih _⟩

theorem rn_path {Q : List Int → α → Prop} {p q : Prog α} {acts : List Act} (hp : Path p acts q)
    (h : p.Ok RN Q []) : ∀ id ts, .note id ts ∈ acts → .now ts ∈ acts := by
  have times : ∀ (acts : List Act) (g : List Int) t, t ∈ acts.foldl RN.post g →
      t ∈ g ∨ .now t ∈ acts := by
    intro acts
    induction acts with
    | nil => intro g t h; exact .inl h
    | cons a acts ih =>
      intro g t h
      rcases ih _ _ h with h | h
      · cases a with
        | now u =>
          rcases List.mem_cons.mp (show t ∈ u :: g from h) with h | h
          · right; rw [h]; exact List.mem_cons_self ..
          · exact .inl h
        | _ => exact .inl h
      · exact .inr (List.mem_cons_of_mem _ h)
  induction hp with
  | nil => simp
  | @snoc acts r a r' hp' hn ih =>
    intro id ts hm
    rw [List.mem_append, List.mem_singleton] at hm
    rcases hm with hm | hm
    · exact List.mem_append_left _ (ih id ts hm)
    · subst hm
      have h1 := (ok_next (path_ok (fun _ _ => trivial) hp' h) hn trivial).1
      rcases times _ _ _ (show ts ∈ acts.foldl RN.post [] from h1) with h2 | h2
      · cases h2
      · exact List.mem_append_left _ h2

/-- A refresh done for a flush is stamped with a time the worker has read during the flush. -/
theorem flush_times {t : Int} {acts : List Act} {q : Prog Unit} (hp : Path (flushCaches t) acts q) :
    ∀ id ts, .note id ts ∈ acts → .now ts ∈ acts := by
  refine rn_path (Q := fun _ _ => True) hp ?_
  rw [flushCaches_eq]
  split
  · exact ok_bind (ok_mono (rn_updates _ _) fun _ _ _ _ => ⟨trivial, trivial⟩)
  · exact fun _ => ⟨trivial, trivial⟩

end Comfo
