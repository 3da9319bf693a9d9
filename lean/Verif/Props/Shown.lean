import Verif.Spec.Shown
import Verif.Props.Tickers
/-!
# How long it takes until what the unit shows is what clients see: C111
-/
namespace Comfo.Props
open Spec Pace

variable {σ : Type} {S : Setup σ} {w : World σ} {f : Nat → Sys σ}

/-! ## A refresh that began while the unit shows `v` brings `v` -/

theorem scanEv_facts (id : CacheId) (s : Option (CVal id × Int)) (c : Cur) (ev : IoEv) :
    ((scanEv id (s, c) ev).1 = s ∨ ∃ pl t v, c = .replied pl t ∧ decode id pl = some v ∧
      (scanEv id (s, c) ev).1 = some (v, t)) ∧
    (∀ t, (scanEv id (s, c) ev).2 = .begun t → ev = .refresh id t) ∧
    (∀ t, (scanEv id (s, c) ev).2 = .asked t → c = .begun t ∧
      ∃ n, ev = .wrote (frame (requestCode id) []) (n, none)) ∧
    (∀ pl t, (scanEv id (s, c) ev).2 = .replied pl t → c = .asked t ∧
      ∃ q, ev = .got true (q, none) ∧ q.data = pl) := by
  unfold scanEv
  split
  · rename_i i t _
    refine ⟨.inl rfl, ?_, ?_, ?_⟩
    · intro t' h
      split at h
      · rename_i hi; subst hi; cases h; rfl
      · cases h
    · intro t' h; split at h <;> cases h
    · intro pl t' h; split at h <;> cases h
  · rename_i bs n t _
    refine ⟨.inl rfl, ?_, ?_, ?_⟩
    · intro t' h; split at h <;> cases h
    · intro t' h
      split at h
      · rename_i hb; subst hb; cases h; exact ⟨by assumption, n, rfl⟩
      · cases h
    · intro pl t' h; split at h <;> cases h
  · rename_i q t _
    refine ⟨.inl rfl, ?_, ?_, ?_⟩
    · intro t' h; split at h <;> cases h
    · intro t' h; split at h <;> cases h
    · intro pl t' h
      split at h
      · cases h; exact ⟨by assumption, q, rfl, rfl⟩
      · cases h
  · rename_i bs n pl t hc
    have hc : c = .replied pl t := hc
    split
    · rename_i v hv
      refine ⟨?_, fun _ h => (by cases h), fun _ h => (by cases h), fun _ _ h => (by cases h)⟩
      simp only
      split
      · exact .inr ⟨pl, t, v, hc, hv, rfl⟩
      · exact .inl rfl
    · exact ⟨.inl rfl, fun _ h => (by cases h), fun _ h => (by cases h), fun _ _ h => (by cases h)⟩
  · exact ⟨.inl rfl, fun _ h => (by cases h), fun _ h => (by cases h), fun _ _ h => (by cases h)⟩

/-- Nothing in the scan is newer than `x`. -/
structure ScanOld (id : CacheId) (x : Int) (s : Option (CVal id × Int) × (Tid → Cur)) : Prop where
  val : ∀ v t, s.1 = some (v, t) → t ≤ x
  begun : ∀ u t, s.2 u = .begun t → t ≤ x
  asked : ∀ u t, s.2 u = .asked t → t ≤ x
  replied : ∀ u pl t, s.2 u = .replied pl t → t ≤ x

theorem scan_old {id : CacheId} {x : Int} (tr : List (Tid × Act)) (h : ∀ u t, (u, .note id t) ∈ tr → t ≤ x) :
    ScanOld id x (scanAll id tr) := by
  unfold scanAll
  suffices ∀ (tr : List (Tid × Act)) s, (∀ u t, (u, .note id t) ∈ tr → t ≤ x) → ScanOld id x s →
      ScanOld id x (tr.foldl (scanAct id) s) from
    this tr _ h ⟨fun _ _ h => (by cases h), fun _ _ h => (by cases h), fun _ _ h => (by cases h), fun _ _ _ h => (by cases h)⟩
  intro tr
  induction tr with
  | nil => exact fun s _ hs => hs
  | cons y tr ih =>
    intro s h hs
    refine ih _ (fun u t hm => h u t (List.mem_cons_of_mem _ hm)) ?_
    obtain ⟨u, a⟩ := y
    unfold scanAct
    cases hev : evOf a with
    | none => exact hs
    | some ev =>
      obtain ⟨f1, f2, f3, f4⟩ := scanEv_facts id s.1 (s.2 u) ev
      refine ⟨?_, ?_, ?_, ?_⟩
      · intro v t e
        rcases f1 with e' | ⟨pl, t', v', c1, -, e'⟩
        · exact hs.val v t (e' ▸ e)
        · have e : (scanEv id (s.1, s.2 u) ev).1 = some (v, t) := e
          rw [e'] at e
          cases e
          exact hs.replied u pl t c1
      · intro u' t e
        simp only at e
        split at e
        · have := f2 t e
          subst this
          refine h u t ?_
          cases a <;> cases hev
          exact List.mem_cons_self ..
        · exact hs.begun u' t e
      · intro u' t e
        simp only at e
        split at e
        · exact hs.begun u t (f3 t e).1
        · exact hs.asked u' t e
      · intro u' pl t e
        simp only at e
        split at e
        · exact hs.asked u t (f4 pl t e).1
        · exact hs.replied u' pl t e

/-- What is newer than `x` in the scan is what the unit shows. -/
structure ScanNew (id : CacheId) (P : CVal id → Prop) (x : Int) (new : List (Tid × Act))
    (s : Option (CVal id × Int) × (Tid → Cur)) : Prop where
  val : ∀ v' t, s.1 = some (v', t) → x < t → P v'
  asked : ∀ u t, s.2 u = .asked t → x < t → lastWritten (actsOf u new) = some (frame (requestCode id) [])
  replied : ∀ u pl t, s.2 u = .replied pl t → x < t → ∃ v, decode id pl = some v ∧ P v

theorem lastWritten_snoc (u t : Tid) (a : Act) (tr : List (Tid × Act)) :
    lastWritten (actsOf u (tr ++ [(t, a)])) =
      if t = u then (match a with
        | .wrote bs _ => some bs
        | _ => lastWritten (actsOf u tr)) else lastWritten (actsOf u tr) := by
  unfold actsOf lastWritten
  rw [List.filterMap_append, List.foldl_append]
  by_cases h : t = u
  · simp only [List.filterMap_cons, h, if_true, List.filterMap_nil, List.foldl_cons, List.foldl_nil]
    cases a <;> rfl
  · simp [h]

theorem scan_new {id : CacheId} {P : CVal id → Prop} {x : Int} {ext : List (Tid × Act)} (hs : Shows id P ext)
    {old : List (Tid × Act)} (ho : ScanOld id x (scanAll id old)) (new : List (Tid × Act)) :
    ∀ rest, ext = new ++ rest → ScanNew id P x new (scanAll id (old ++ new)) := by
  induction hl : new.length generalizing new with
  | zero =>
    have := List.length_eq_zero_iff.1 hl
    subst this
    intro rest _
    rw [List.append_nil]
    exact ⟨fun v' t e h => absurd (ho.val v' t e) (by omega), fun u t e h => absurd (ho.asked u t e) (by omega),
      fun u pl t e h => absurd (ho.replied u pl t e) (by omega)⟩
  | succ n ih =>
    intro rest he
    obtain ⟨new, y, rfl⟩ : ∃ new' y, new = new' ++ [y] := by
      rcases List.eq_nil_or_concat new with h | h
      · rw [h] at hl; cases hl
      · obtain ⟨l, b, h⟩ := h
        exact ⟨l, b, by rw [h, List.concat_eq_append]⟩
    rw [List.append_assoc] at he
    have hn := ih new (by simpa using hl) _ he
    have e : scanAll id (old ++ (new ++ [y])) = scanAct id (scanAll id (old ++ new)) y := by
      unfold scanAll
      rw [← List.append_assoc, List.foldl_append]
      rfl
    rw [e]
    generalize scanAll id (old ++ new) = s at hn ⊢
    obtain ⟨u, a⟩ := y
    have other : ∀ u' t, u' ≠ u → s.2 u' = .asked t → x < t →
        lastWritten (actsOf u' (new ++ [(u, a)])) = some (frame (requestCode id) []) := by
      intro u' t hu e hx
      rw [lastWritten_snoc, if_neg (fun h => hu h.symm)]
      exact hn.asked u' t e hx
    unfold scanAct
    cases hev : evOf a with
    | none =>
      refine ⟨hn.val, ?_, hn.replied⟩
      intro u' t e hx
      rw [lastWritten_snoc]
      split
      · rename_i hu
        cases a <;> first | exact hn.asked u' t e hx | cases hev
      · exact hn.asked u' t e hx
    | some ev =>
      obtain ⟨f1, f2, f3, f4⟩ := scanEv_facts id s.1 (s.2 u) ev
      refine ⟨?_, ?_, ?_⟩
      · intro v' t e hx
        rcases f1 with e' | ⟨pl, t', v'', c1, c2, e'⟩
        · exact hn.val v' t (e' ▸ e) hx
        · have e : (scanEv id (s.1, s.2 u) ev).1 = some (v', t) := e
          rw [e'] at e
          cases e
          obtain ⟨v, h1, h2⟩ := hn.replied u pl t c1 hx
          rw [c2] at h1
          cases h1
          exact h2
      · intro u' t e hx
        simp only at e
        split at e
        · rename_i hu
          obtain ⟨-, n, e3⟩ := f3 t e
          subst e3
          rw [lastWritten_snoc, if_pos hu.symm]
          cases a <;> cases hev
          rfl
        · rename_i hu
          exact other u' t hu e hx
      · intro u' pl t e hx
        simp only at e
        split at e
        · obtain ⟨c1, q, e4, rfl⟩ := f4 pl t e
          subst e4
          have ha : a = .got true (q, none) := by cases a <;> cases hev <;> rfl
          subst ha
          exact (hs.reply new u q none rest he (hn.asked u t c1 hx)).2.2
        · exact hn.replied u' pl t e hx

/-- A value that was read from the unit after `s` is one that the unit shows since `s`. -/
theorem shown_current (hw : ∀ id, (w.get id).last ≤ w.clock) {s : Sys σ} (hr : Reachable S (Sys.initial w) s)
    {id : CacheId} {P : CVal id → Prop} {ext pre post : List (Tid × Act)} (hs : Shows id P ext)
    (he : s.sh.trace ++ ext = pre ++ post) (hc : s.sh.world.clock < (current id (w.get id) pre).last) :
    P (current id (w.get id) pre).val := by
  obtain ⟨g, hi⟩ := inv5 hw hr
  have hG : Glob5 g s.sh := hi.glob
  have ho : ∀ tr, (∀ y ∈ tr, y ∈ s.sh.trace) → ScanOld id s.sh.world.clock (scanAll id tr) :=
    fun tr h => scan_old tr fun u t hm => hG.noted u id t (h _ hm)
  have hn : ∀ v' t, (scanAll id pre).1 = some (v', t) → s.sh.world.clock < t → P v' := by
    rcases List.append_eq_append_iff.1 he with ⟨new, rfl, h2⟩ | ⟨more, h2, -⟩
    · exact (scan_new hs (ho _ fun _ h => h) new post h2).val
    · intro v' t h3 h4
      have := (ho pre fun y h => h2 ▸ List.mem_append_left _ h).val v' t h3
      omega
  unfold current at hc ⊢
  match h3 : (scanAll id pre).1 with
  | some (v', t) =>
    rw [h3] at hc
    exact hn v' t h3 hc
  | none =>
    rw [h3] at hc
    have h1 := hw id
    obtain ⟨-, -, h2, -⟩ := since hr
    have h2 : w.clock ≤ s.sh.world.clock := h2
    have hc : s.sh.world.clock < (w.get id).last := hc
    omega

/-! ## The refresh for a tick succeeds while the unit works -/

/-- What each refresh in `acts` did. -/
def Refreshed (acts : List Act) : Prop :=
  ∀ id t, .note id t ∈ acts → ∃ l₁ l₂ qa q e, QueryActs (requestCode id) [] true qa (q, e) ∧
    acts = l₁ ++ .note id t :: qa ++
      (match outcome id q e with | some v => [.store id ⟨v, t⟩] | none => []) ++ l₂

theorem refreshed_append {as bs : List Act} (ha : Refreshed as) (hb : Refreshed bs) : Refreshed (as ++ bs) := by
  intro id t h
  rcases List.mem_append.1 h with h | h
  · obtain ⟨l₁, l₂, qa, q, e, h1, h2⟩ := ha id t h
    exact ⟨l₁, l₂ ++ bs, qa, q, e, h1, by rw [h2]; simp⟩
  · obtain ⟨l₁, l₂, qa, q, e, h1, h2⟩ := hb id t h
    exact ⟨as ++ l₁, l₂, qa, q, e, h1, by rw [h2]; simp⟩

theorem refreshed_acts {id : CacheId} {t : Int} {acts pre : List Act} (h : RefreshActs id t acts)
    (hp : ∀ i t, .note i t ∉ pre) : Refreshed (pre ++ acts) := by
  obtain ⟨qa, q, e, h1, rfl⟩ := h
  intro i t' hm
  have : i = id ∧ t' = t := by
    rcases List.mem_append.1 hm with hm | hm
    · exact absurd hm (hp i t')
    · obtain ⟨evs, h2, rfl⟩ := h1
      have no : Act.note i t' ∉ evs.map toAct := by cases h2 <;> simp [toAct]
      have no' : Act.note i t' ∉ (match outcome id q e with | some v => [Act.store id ⟨v, t⟩] | none => []) := by
        split <;> simp
      simp only [List.mem_append, List.mem_cons, List.not_mem_nil, or_false, reduceCtorEq, no, no',
        Act.note.injEq] at hm
      rcases hm with hm | hm
      · exact hm
      · exact absurd hm no'
  obtain ⟨rfl, rfl⟩ := this
  exact ⟨pre, [.unlock (.cache i)], qa, q, e, h1, by simp only [List.append_assoc, List.cons_append]; rfl⟩

theorem post_refreshed (id : CacheId) : (update id false).Post fun acts _ => Refreshed acts := by
  unfold update
  simp only [Prog.Post, Bool.false_eq_true, if_false]
  intro ts c
  by_cases hs : isStale c.last ts = true
  · simp only [hs, Bool.not_true, Bool.false_eq_true, if_false]
    refine (post_refresh id ts).mono ?_
    intro as _ h
    exact refreshed_acts (pre := [.lock (.cache id), .now ts, .load id c]) h (by simp)
  · simp only [hs, Bool.not_false, if_true, Prog.Post]
    intro i t h
    simp at h

theorem tick_refreshed {k : Tick} {acts : List Act} (h : Path (onTick k) acts (.ret ())) : Refreshed acts := by
  have key : ∀ i j, ((update i false).bind fun _ => update j false).Post fun acts _ => Refreshed acts :=
    fun i j => (post_refreshed i).seq fun as _ ha => (post_refreshed j).mono fun bs _ hb => refreshed_append ha hb
  have : (onTick k).Post fun acts _ => Refreshed acts := by cases k <;> exact key _ _
  exact this.path h

theorem lastWritten_append (as bs : List Act) (x : List UInt8) (r : Nat × Option Err) :
    lastWritten (as ++ .wrote x r :: bs) = if lastWritten bs = none then some x else lastWritten bs := by
  have key : ∀ (bs : List Act) (o : Option (List UInt8)), bs.foldl (fun o a => match a with
      | .wrote bs _ => some bs
      | _ => o) o = if lastWritten bs = none then o else lastWritten bs := by
    intro bs
    induction bs with
    | nil => intro o; rfl
    | cons b bs ih =>
      intro o
      have e : lastWritten (b :: bs) = bs.foldl (fun o a => match a with
        | .wrote bs _ => some bs
        | _ => o) (match (generalizing := false) b with
        | .wrote bs _ => some bs
        | _ => none) := rfl
      rw [e, List.foldl_cons, ih, ih]
      by_cases hb : lastWritten bs = none
      · simp only [hb, if_true]
        cases b <;> simp
      · simp only [hb, if_false]
  unfold lastWritten
  rw [List.foldl_append, List.foldl_cons]
  exact key bs (some x)

theorem shown_stored {id : CacheId} {P : CVal id → Prop} {pre ext rest : List (Tid × Act)}
    (hs : Shows id P (pre ++ ext ++ rest))
    {k : Tick} {as bs : List Act} {ts : Int} (he : actsOf .worker ext = as ++ bs) (hp : Path (onTick k) as (.ret ()))
    (hm : .note id ts ∈ as) : ∃ v, (.worker, Act.store id { val := v, last := ts }) ∈ ext := by
  obtain ⟨l₁, l₂, qa, q, e, ⟨evs, h1, rfl⟩, h2⟩ := tick_refreshed hp id ts hm
  have mem : ∀ a, a ∈ as → (Tid.worker, a) ∈ ext := fun a h => mem_actsOf (he ▸ List.mem_append_left _ h)
  have wr : ∀ bs k err, .wrote bs (k, err) ∈ as → bs = frame (requestCode id) [] ∨ bs = ack → k = bs.length ∧ err = none :=
    fun bs k err h hb => hs.writes .worker bs k err
      (List.mem_append_left _ (List.mem_append_right _ (mem _ h))) hb
  have rd : ∀ l₁ l₂ n q err, as = l₁ ++ .wrote (frame (requestCode id) []) (n, none) :: .got true (q, err) :: l₂ →
      err = none ∧ q.command = requestCode id + 1 ∧ ∃ v, decode id q.data = some v ∧ P v := by
    intro l₁ l₂ n q err h
    have hx : actsOf .worker (pre ++ ext ++ rest) = (actsOf .worker pre ++ l₁ ++ [.wrote (frame (requestCode id) []) (n, none)]) ++
        .got true (q, err) :: (l₂ ++ bs ++ actsOf .worker rest) := by
      rw [actsOf_append, actsOf_append, he, h]; simp
    obtain ⟨p, p', e1, e2, -⟩ := actsOf_split hx
    refine hs.reply p .worker q err p' e1 ?_
    rw [e2, lastWritten_append _ []]
    rfl
  generalize hr : (q, e) = r at h1
  cases h1 with
  | writeFailed n e' =>
    have := (wr _ n (some e') (by rw [h2]; simp [toAct]) (.inl rfl)).2
    cases this
  | readFailed n q' e' =>
    have := (rd (l₁ ++ [.note id ts, .lock .pm]) _ n q' (some e') (by rw [h2]; simp [toAct]; rfl)).1
    cases this
  | wrongReply n q' _ hq =>
    exact absurd (rd (l₁ ++ [.note id ts, .lock .pm]) _ n q' none (by rw [h2]; simp [toAct]; rfl)).2.1 hq
  | ackFailed n q' m e' hq =>
    have := (wr _ m (some e') (by rw [h2]; simp [toAct]) (.inr rfl)).2
    cases this
  | ackShort n q' m hq hm' =>
    exact absurd (wr _ m none (by rw [h2]; simp [toAct]) (.inr rfl)).1 hm'
  | complete n q' hq =>
    cases hr
    obtain ⟨v, hd, -⟩ := (rd (l₁ ++ [.note id ts, .lock .pm]) _ n q none (by rw [h2]; simp [toAct]; rfl)).2.2
    have ho : outcome id q none = some v := hd
    refine ⟨v, mem _ ?_⟩
    rw [h2, ho]
    simp

/-- If the unit works since step `p`, a request made after the bound is served what was read from the unit since `p`. -/
theorem read_since {δ r A j : Nat} (T : Timely S w f δ r) (hA : JobsWithin f δ r A) (hw : ∀ id, (w.get id).last ≤ w.clock)
    {k : Tick} (hk : Ticking f k δ j) {id : CacheId} (hid : id ∈ tier k) {p n n' : Nat}
    (hn : (f p).sh.world.clock + (tickTime δ r A j k + 4500000000 : Nat) < (f n).sh.world.clock)
    (hnn : n ≤ n') {ext : List (Tid × Act)} (hext : (f n').sh.trace = (f p).sh.trace ++ ext) {P : CVal id → Prop}
    (hs : Shows id P ext) {i : Nat} (hi : (f n).clients.length ≤ i) {x : Resp} (ha : Answered (f n') i (getCall id) x) :
    ∃ pre c post, (f n').sh.trace = pre ++ (.client i, .load id c) :: post ∧ c = current id (w.get id) pre ∧
      x = getAnswer id c.val ∧ (f p).sh.world.clock < c.last := by
  have hf := T.run
  have hp0 := run_clock hf (Nat.zero_le p)
  obtain ⟨a, b, hab, hbn, ht, hb, hle⟩ := C110_tick T hA hk (n := n) (by omega)
  have later : ∀ {m m'}, (f m).sh.world.clock < (f m').sh.world.clock → m ≤ m' := by
    intro m m' h
    rcases Nat.lt_or_ge m' m with h' | h'
    · have := run_clock hf (Nat.le_of_lt h'); omega
    · exact h'
  have hpa : p ≤ a := later (by omega)
  have h1 : Reachable S { f a with worker := onTick k } (f b) := ht.2 ▸ run_from hf (show a + 1 ≤ b from hab)
  obtain ⟨ext₁, x1, -⟩ := since (run_from hf hpa)
  obtain ⟨ext₂, x2, -⟩ := since h1
  obtain ⟨ext₃, x3, -⟩ := since (run_from hf (show b ≤ n' by omega))
  have x2 : (f b).sh.trace = (f a).sh.trace ++ ext₂ := x2
  have hsplit : ext = ext₁ ++ ext₂ ++ ext₃ := by
    rw [x3, x2, x1, List.append_assoc, List.append_assoc] at hext
    rw [← List.append_cancel_left hext, List.append_assoc]
  have hlen : (f b).clients.length ≤ i := Nat.le_trans (clients_grow hf (Nat.le_of_lt hbn)) hi
  obtain ⟨pre, c, post, e1, e2, e3, e4⟩ := tick_age hw hid (run_reach hf a) ht.1 h1 hb x2
    (fun as bs ts y1 y2 y3 => shown_stored (hsplit ▸ hs) y1 y2 y3) (run_from hf (show b ≤ n' by omega)) hlen ha
  exact ⟨pre, c, post, e1, e2, e3, by omega⟩

/-! ## The property -/

/-- **C111** (1) Since step `p` the unit works, and `P` holds of what it shows for cache `id`; for instance `P` says that it
is one particular value, or that one part of it has a particular value. Whoever asks for it when the timer of that cache
must have fired and the worker must have dealt with that, gets a value that fulfils `P`. -/
theorem C111_shown {δ r A j : Nat} (T : Timely S w f δ r) (hA : JobsWithin f δ r A) (hw : ∀ id, (w.get id).last ≤ w.clock)
    {k : Tick} (hk : Ticking f k δ j) {id : CacheId} (hid : id ∈ tier k) {p n n' : Nat}
    (hn : (f p).sh.world.clock + (tickTime δ r A j k + 4500000000 : Nat) < (f n).sh.world.clock)
    (hnn : n ≤ n') {ext : List (Tid × Act)} (hext : (f n').sh.trace = (f p).sh.trace ++ ext) {P : CVal id → Prop}
    (hs : Shows id P ext) {i : Nat} (hi : (f n).clients.length ≤ i) {x : Resp} (ha : Answered (f n') i (getCall id) x) :
    ∃ v, P v ∧ x = getAnswer id v := by
  obtain ⟨pre, c, post, e1, e2, e3, e4⟩ := read_since T hA hw hk hid hn hnn hext hs hi ha
  exact ⟨c.val, e2 ▸ shown_current hw (run_reach T.run p) hs (hext.symm.trans e1) (e2 ▸ e4), e3⟩

/-- **C111** (2) The temperatures and the fans' values are those of the unit after 19.5 s, plus 10 s for each job the
worker was at or did first, if nobody asks for a flush; 24 s instead of 10 s otherwise. -/
theorem C111_fast {δ r j : Nat} (T : Timely S w f δ r) (hw : ∀ id, (w.get id).last ≤ w.clock)
    (hk : Ticking f .fast δ j) {id : CacheId} (hid : id = .temps ∨ id = .fans) {p n n' D : Nat}
    (hD : ((∀ n, ∀ c ∈ (f n).clients, ∀ t, c.call ≠ .flush t) ∧
        D = 19500000000 + (j + 1) * (10000000000 + (83 + 6 * r) * δ) + (82 + 6 * r) * δ) ∨
      D = 19500000000 + (j + 1) * (24000000000 + (188 + 18 * r) * δ) + (82 + 6 * r) * δ)
    (hn : (f p).sh.world.clock + (D : Nat) < (f n).sh.world.clock)
    (hnn : n ≤ n') {ext : List (Tid × Act)} (hext : (f n').sh.trace = (f p).sh.trace ++ ext) {P : CVal id → Prop}
    (hs : Shows id P ext) {i : Nat} (hi : (f n).clients.length ≤ i) {x : Resp} (ha : Answered (f n') i (getCall id) x) :
    ∃ v, P v ∧ x = getAnswer id v := by
  have hid' : id ∈ tier .fast := by rcases hid with rfl | rfl <;> simp [tier]
  rcases hD with ⟨hno, rfl⟩ | rfl
  · have e := tickTime_fast δ r (10000000000 + (82 + 6 * r) * δ) j
    rw [show 10000000000 + (82 + 6 * r) * δ + δ = 10000000000 + (83 + 6 * r) * δ by
      simp only [Nat.add_mul]; omega] at e
    exact C111_shown T (jobs_ticks T.calls T.run hno δ r) hw hk hid' (p := p) (by omega) hnn hext hs hi ha
  · have e := tickTime_fast δ r (24000000000 + (187 + 18 * r) * δ) j
    rw [show 24000000000 + (187 + 18 * r) * δ + δ = 24000000000 + (188 + 18 * r) * δ by
      simp only [Nat.add_mul]; omega] at e
    exact C111_shown T (jobs_all T.run δ r) hw hk hid' (p := p) (by omega) hnn hext hs hi ha

/-! ## An example -/

def decodeTemps (bs : List UInt8) : Option Temps := decode .temps bs

/-- What the examples' unit shows. -/
def ventTemps : Temps := (decodeTemps ((samplePayload 0xD1).set 0 82)).getD {}

/-- Checks `Shows` for the temperatures. -/
def showsB (v : Temps) (ext : List (Tid × Act)) : Bool :=
  (ext.all fun x => match x.2 with
    | .wrote bs (k, err) => !(bs = frame 0xD1 [] || bs = ack) || (k == bs.length && err.isNone)
    | _ => true) &&
  (List.range ext.length).all fun i => match ext[i]? with
    | some (t, .got true (q, err)) => !(lastWritten (actsOf t (ext.take i)) = some (frame 0xD1 [])) ||
      (err.isNone && q.command == 0xD2 && decodeTemps q.data = some v)
    | _ => true

theorem showsB_sound {v : Temps} {ext : List (Tid × Act)} (h : showsB v ext = true) : Shows .temps (· = v) ext := by
  simp only [showsB, Bool.and_eq_true] at h
  obtain ⟨h1, h2⟩ := h
  refine ⟨?_, ?_⟩
  · intro t bs k err hm hb
    have := List.all_eq_true.1 h1 _ hm
    have hb : bs = frame 0xD1 [] ∨ bs = ack := hb
    simp only [Bool.or_eq_true, Bool.not_eq_true', Bool.or_eq_false_iff, decide_eq_false_iff_not, Bool.and_eq_true,
      beq_iff_eq, Option.isNone_iff_eq_none] at this
    rcases this with h | h
    · rcases hb with hb | hb
      · exact absurd hb h.1
      · exact absurd hb h.2
    · exact h
  · intro as t q err bs he hl
    have := List.all_eq_true.1 h2 as.length (List.mem_range.2 (by rw [he]; simp))
    have hi : ext[as.length]? = some (t, .got true (q, err)) := by rw [he]; simp
    have hl : lastWritten (actsOf t (ext.take as.length)) = some (frame 0xD1 []) := by
      rw [he, List.take_left]; exact hl
    rw [hi] at this
    simp only [hl, decide_true, Bool.not_true, Bool.false_or, Bool.and_eq_true, Option.isNone_iff_eq_none, beq_iff_eq,
      decide_eq_true_eq] at this
    exact ⟨this.1.1, this.1.2, _, this.2, rfl⟩

/-- The execution of C110's example: the caches are empty but for the comfort temperature and from a time long ago; half
a minute later the temperatures of the unit are read. -/
example : ∃ x, Answered (ticks 148) 0 .getTemps x ∧ x = getAnswer .temps ventTemps ∧
    ventTemps ≠ duelStart.temps.val := by
  obtain ⟨x, hx⟩ : ∃ x, Answered (ticks 148) 0 .getTemps x := ⟨_, rfl⟩
  have := C111_fast (j := 0) (p := 0) (n := 144) (n' := 148) (D := 29500000000) (i := 0) (id := .temps)
    (ext := (ticks 148).sh.trace) (P := (· = ventTemps))
    ticks_timely (by intro id; cases id <;> decide +kernel) ticks_ticking (.inl rfl) (.inl ⟨fun n c hc t => by
      have : ∀ n, ((ticks n).clients.all fun c => c.call = .getTemps) = true :=
        ticks_all (P := fun s => (s.clients.all fun c => c.call = .getTemps) = true) (by decide +kernel)
      rw [of_decide_eq_true (List.all_eq_true.1 (this n) c hc)]
      exact nofun, rfl⟩) (by decide +kernel) (by omega)
    (by rw [show (ticks 0).sh.trace = [] from rfl, List.nil_append]) (showsB_sound (by decide +kernel)) (by decide +kernel) hx
  obtain ⟨v, rfl, h⟩ := this
  exact ⟨x, hx, h, by decide +kernel⟩

end Comfo.Props
