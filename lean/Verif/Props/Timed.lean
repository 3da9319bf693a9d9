import Verif.Lemmas.Timed
import Verif.Props.Polling
import Verif.Props.Load
/-!
# How long requests take, in every interleaving: C56, C80, C81
-/
namespace Comfo.Props
open Spec

/-- Every request has a time of arrival and a time of its last action; the waiting it did lies in
between. -/
theorem took {c : Timed σ} (hi : TimedInv c) {i : Nat} {cl : Client}
    (ha : c.sys.clients[i]? = some cl) :
    ∃ a e, Took c i a e ∧ a + waited (actsOf (.client i) c.sys.sh.trace) ≤ e ∧
      Spaced (some a) (own (.client i) c.log) ∧ ∀ x ∈ own (.client i) c.log, x.2 ≤ e := by
  have hlt : i < c.arrived.length := by
    rw [hi.len]
    exact (List.getElem?_eq_some_iff.mp ha).1
  have harr : c.arrived[i]? = some (c.arrived[i]) := List.getElem?_eq_getElem hlt
  generalize c.arrived[i] = a at harr
  have hsp := hi.client i a harr
  have hlast : c.last (.client i) = lastOf (some a) (own (.client i) c.log) := by
    simp only [Timed.last, lastOf, harr]
    cases (own (.client i) c.log).getLast? <;> rfl
  obtain ⟨e, he⟩ : ∃ e, lastOf (some a) (own (.client i) c.log) = some e := by
    unfold lastOf
    split
    · exact ⟨_, rfl⟩
    · exact ⟨_, rfl⟩
  obtain ⟨h1, h2⟩ := hsp.le_last he
  refine ⟨a, e, ⟨harr, hlast.trans he⟩, ?_, hsp, h1⟩
  rw [hi.trace, actsOf_own]
  exact hsp.sum (h2 a rfl) h1

theorem pauses_waited (acts : List Act) : (pauses acts).sum ≤ waited acts := by
  induction acts with
  | nil => decide
  | cons a acts ih =>
    rw [waited_cons]
    cases a <;> simp [pauses, atLeast] at ih ⊢ <;> omega

/-- **C56** in every interleaving: a `SetFanSpeed` request that fails because the fans did not reach
the target is answered too late for the client to get the answer. -/
theorem C56_request {S : Setup σ} {w : World σ} {c : Timed σ} (h : Clocked S (Sys.initial w) c)
    {i : Nat} {abs : UInt32} {rel : Bool}
    (ha : Answered c.sys i (.setSpeed abs rel) (.speed (.err (.internal .pollFailed)))) :
    ∃ a e, Took c i a e ∧ ¬ InTime a e := by
  obtain ⟨a, e, ht, hw, -⟩ := took (timed_inv h) ha
  have hp := ((C48_request (timed_reach h) ha).2.2.1 rfl).2
  have hs := pauses_waited (actsOf (.client i) c.sys.sh.trace)
  rw [hp] at hs
  simp at hs
  refine ⟨a, e, ht, ?_⟩
  unfold InTime writeTimeout
  omega

/-! ## C80 -/

/-- The clock is read at the beginning and, but for the release of a lock, at the end. -/
def Framed (x : Int) (acts : List Act) : Prop :=
  ∃ t mid t' tail, acts = .now t :: mid ++ .now t' :: tail ∧ x = timeSub t' t ∧ waited tail = 0

theorem framed (cv : FloatConv) (c : Call) :
    (c.prog cv).Post fun acts r => ∀ x, reqTimeOf r = some x → Framed x acts := by
  cases c with
  | setComfort v =>
    refine Prog.Post.map ((post_setComfortTemp cv v).mono fun acts r h x hx => ?_)
    cases h with
    | same t c stop => cases hx; exact ⟨t, [.load .temps c], stop, [], rfl, rfl, rfl⟩
    | set t c sa u stop =>
      cases hx
      exact ⟨t, .load .temps c :: .lock .temp :: (sa ++ u), stop, [.unlock .temp], by simp, rfl, rfl⟩
    | _ => cases hx
  | setSpeed a r =>
    refine Prog.Post.map ((post_setFanSpeed a r).mono fun acts r h x hx => ?_)
    cases h with
    | same t c stop => cases hx; exact ⟨t, [.lock .fan, .load .profiles c], stop, [.unlock .fan], rfl, rfl, rfl⟩
    | set t c m sa p y z pa u stop =>
      cases hx
      exact ⟨t, .lock .fan :: .load .profiles c :: (sa ++ .rlock (.cache .profiles) ::
        .load .profiles p :: .runlock (.cache .profiles) :: (pa ++ u)), stop, [.unlock .fan],
        by simp, rfl, rfl⟩
    | _ => cases hx
  | setProfile m v =>
    refine Prog.Post.map ((post_setFanProfileRpc m v).mono fun acts r h x hx => ?_)
    cases h with
    | same t c stop => cases hx; exact ⟨t, [.lock .fan, .load .profiles c], stop, [.unlock .fan], rfl, rfl, rfl⟩
    | set t c sa u stop =>
      cases hx
      exact ⟨t, .lock .fan :: .load .profiles c :: (sa ++ u), stop, [.unlock .fan], by simp, rfl, rfl⟩
    | _ => cases hx
  | flush t =>
    intro start b stop x hx
    cases hx
    exact ⟨start, [.sendFlush t, .recvFlushed b], stop, [], rfl, rfl, rfl⟩
  | _ => exact Prog.Post.map ((post_true _).mono fun _ _ _ x hx => by cases hx)

theorem map_eq_cons_append {α β : Type} {f : α → β} {l : List α} {x y : β} {m n : List β}
    (h : l.map f = x :: m ++ y :: n) :
    ∃ x' m' y' n', l = x' :: m' ++ y' :: n' ∧ f x' = x ∧ m'.map f = m ∧ f y' = y ∧ n'.map f = n := by
  obtain ⟨l1, l2, rfl, h1, h2⟩ := List.map_eq_append_iff.mp h
  obtain ⟨x', m', rfl, rfl, rfl⟩ := List.map_eq_cons_iff.mp h1
  obtain ⟨y', n', rfl, rfl, rfl⟩ := List.map_eq_cons_iff.mp h2
  exact ⟨x', m', y', n', rfl, rfl, rfl, rfl, rfl⟩

/-- **C80** The `ReqTime` in an answer is not negative and at most the time from the arrival of the
request to its last action, and it covers every pause and every timeout the request sat through (up
to the largest duration Go can express). -/
theorem C80_req_time {S : Setup σ} {w : World σ} {c : Timed σ} (h : Clocked S (Sys.initial w) c)
    {i : Nat} {call : Call} {r : Resp} (ha : Answered c.sys i call r) {x : Int}
    (hx : reqTimeOf r = some x) :
    ∃ a e, Took c i a e ∧ 0 ≤ x ∧ x ≤ e - a ∧
      min (waited (actsOf (.client i) c.sys.sh.trace) : Int) 9223372036854775807 ≤ x := by
  have hi := timed_inv h
  obtain ⟨a, e, ht, -, hsp, hle⟩ := took hi ha
  obtain ⟨t, mid, t', tail, e1, e2, e3⟩ := (framed S.cv call).answered (timed_reach h) ha x hx
  rw [hi.trace, actsOf_own] at e1 ⊢
  obtain ⟨⟨a1, τ1⟩, m, ⟨a2, τ2⟩, n, f1, rfl, f2, rfl, f3⟩ := map_eq_cons_append e1
  have hn : ∀ u τ, (Act.now u, τ) ∈ own (.client i) c.log → u = τ := fun u τ hm =>
    hi.now _ _ _ (mem_own hm)
  rw [f1] at hsp hle hn
  have k1 := hn t τ1 (by simp)
  have k2 := hn t' τ2 (by simp)
  subst k1 k2
  have l1 := hsp.1 a rfl
  have l2 : Spaced (some t) (m ++ [(.now t', t')]) := by
    have : (m ++ (.now t', t') :: n : List (Act × Int)) = (m ++ [(.now t', t')]) ++ n := by simp
    exact Spaced.left (by rw [← this]; exact hsp.2)
  obtain ⟨l3, l4⟩ := l2.le_last (e := t') (by simp [lastOf])
  have l5 := l4 t rfl
  have l6 := l2.sum l5 l3
  have l7 := hle (.now t', t') (by simp)
  rw [f1, List.map_append, List.map_cons, List.map_cons, waited_append, waited_cons, waited_cons, f2,
    f3, e3]
  rw [List.map_append, waited_append, f2] at l6
  simp only [List.map_cons, List.map_nil, waited_cons, atLeast] at l1 l6 l7 ⊢
  have hz : waited [] = 0 := rfl
  refine ⟨a, e, ht, ?_⟩
  subst e2
  unfold timeSub
  repeat' split
  all_goals omega

/-- **C80** for every request, whatever it returns: it has taken at least as long as all its pauses
and timeouts together. -/
theorem C80_waits {S : Setup σ} {w : World σ} {c : Timed σ} (h : Clocked S (Sys.initial w) c)
    {i : Nat} {call : Call} {r : Resp} (ha : Answered c.sys i call r) :
    ∃ a e, Took c i a e ∧ a + waited (actsOf (.client i) c.sys.sh.trace) ≤ e := by
  obtain ⟨a, e, ht, hw, -⟩ := took (timed_inv h) ha
  exact ⟨a, e, ht, hw⟩

/-! ## C81 -/

theorem flush_head {t : Int} {a : Act} {p : Prog Unit} (h : (flushCaches t).Next a p) :
    atLeast a = 0 := by
  have hl : ∀ {id : CacheId} {f : Unit → Prog Unit}, ((update id true).bind f).Next a p →
      atLeast a = 0 := by
    intro id f h
    change Prog.Next (.lock _ _) _ _ at h
    cases h; rfl
  unfold flushCaches at h
  repeat' split at h
  all_goals first
    | exact hl h
    | (change Prog.Next (.lock _ _) _ _ at h; cases h; rfl)
    | (cases h; rfl)

theorem filter_waited (f : Act → Bool) (acts : List Act) : waited (acts.filter f) ≤ waited acts := by
  induction acts with
  | nil => exact Nat.le_refl _
  | cons a acts ih =>
    rw [List.filter_cons, waited_cons]
    split
    · rw [waited_cons]; omega
    · omega

/-- The actions of a unit that takes everything and answers nothing. -/
def Quiet (acts : List Act) : Prop :=
  (∀ e q err, .got e (q, err) ∈ acts → err = some .timeout) ∧
  (∀ bs n err, .wrote bs (n, err) ∈ acts → err = none)

theorem quiet_run {id : CacheId} {acts : List Act} (h : RefreshRun id acts) (hq : Quiet acts) :
    waited acts = 1000000000 := by
  have tx : ∀ {evs : List IoEv} {q : Packet} {e : Option Err},
      Transaction (requestCode id) [] true evs (q, e) → Quiet (evs.map toAct) →
      waited (evs.map toAct) = 1000000000 ∧ outcome id q e = none := by
    intro evs q e ht hq
    cases ht with
    | writeFailed n e => exact absurd (hq.2 _ n (some e) List.mem_cons_self) (by simp)
    | readFailed n q e =>
      have := hq.1 true q (some e) (by simp [toAct])
      cases this
      exact ⟨by simp [waited, toAct, atLeast], rfl⟩
    | wrongReply n q => exact absurd (hq.1 true q none (by simp [toAct])) (by simp)
    | ackFailed n q => exact absurd (hq.1 true q none (by simp [toAct])) (by simp)
    | ackShort n q => exact absurd (hq.1 true q none (by simp [toAct])) (by simp)
    | complete n q => exact absurd (hq.1 true q none (by simp [toAct])) (by simp)
  cases h with
  | failed t evs q e ht ho =>
    have := (tx ht ⟨fun e q err h => hq.1 e q err (by simp [h]),
      fun bs n err h => hq.2 bs n err (by simp [h])⟩).1
    rw [waited_cons, this]; simp [atLeast]
  | good t evs q e v ht ho =>
    have := (tx ht ⟨fun e q err h => hq.1 e q err (by simp [h]),
      fun bs n err h => hq.2 bs n err (by simp [h])⟩).2
    rw [this] at ho
    cases ho

theorem quiet_runs {ids : List CacheId} {acts : List Act} (h : RefreshRuns ids acts)
    (hq : Quiet acts) : waited acts = ids.length * 1000000000 := by
  induction h with
  | nil => rfl
  | cons h1 h2 ih =>
    rw [waited_append, quiet_run h1 ⟨fun e q err h => hq.1 e q err (by simp [h]),
      fun bs n err h => hq.2 bs n err (by simp [h])⟩,
      ih ⟨fun e q err h => hq.1 e q err (by simp [h]),
      fun bs n err h => hq.2 bs n err (by simp [h])⟩]
    simp; omega

theorem targets_load (t : Int) : ((flushTargets t).getD []).length = flushLoad t := by
  unfold flushTargets flushLoad
  repeat' split
  all_goals first
    | rfl
    | omega
    | simp_all

/-- **C81** A request to flush a cache, made while the unit does not answer, is answered no sooner
than one second per cache after it arrived, and reports a `ReqTime` of at least that. Flushing all
caches takes six seconds, too long for the client to get the answer. -/
theorem C81_silent_flush {S : Setup σ} {w : World σ} {c : Timed σ} (h : Clocked S (Sys.initial w) c)
    {i : Nat} {t : Int} {r : Resp} (ha : Answered c.sys i (.flush t) r) :
    ∃ a e n, Took c i a e ∧ r = .flushed (.ok ⟨knownCache t, n⟩) ∧ (SilentSince a c.log →
      a + flushLoad t * 1000000000 ≤ e ∧ flushLoad t * 1000000000 ≤ n ∧
      (t = 10 → ¬ InTime a e)) := by
  have hi := timed_inv h
  have hr := timed_reach h
  obtain ⟨a, e, ht, -, hsp, hle⟩ := took hi ha
  obtain ⟨g, hv⟩ := inv1 hr
  have hdone : ∃ x b y, actsOf (.client i) c.sys.sh.trace =
      [.now x, .sendFlush t, .recvFlushed b, .now y] ∧
      Prog.ret r = .ret (.flushed (.ok ⟨b, timeSub y x⟩)) := by
    rcases flush_path (hv.hist.path i _ ha).1 with h | ⟨hne, -⟩
    · exact h
    · exact absurd rfl (hne r)
  obtain ⟨x, b, y, hacts, hres⟩ := hdone
  have hmem : (.client i, .recvFlushed b) ∈ c.sys.sh.trace :=
    mem_actsOf_iff.mp (by rw [hacts]; simp)
  obtain ⟨pre, post, hsplit⟩ := List.append_of_mem hmem
  obtain ⟨t', pre', mid, e1, e2, e3, e4, q, e5⟩ := served hr i b pre post hsplit
  -- the same in the record with times
  rw [hi.trace] at hsplit
  obtain ⟨lp, l1, g1, g2, g3⟩ := List.map_eq_append_iff.mp hsplit
  obtain ⟨⟨u1, a1, τ1⟩, lpost, rfl, g4, -⟩ := List.map_eq_cons_iff.mp g3
  rw [e1] at g2
  obtain ⟨l2, l3, rfl, g5, g6⟩ := List.map_eq_append_iff.mp g2
  obtain ⟨l4, l5, rfl, g7, g8⟩ := List.map_eq_append_iff.mp g5
  obtain ⟨⟨u0, a0, τ0⟩, lmid, rfl, g9, g10⟩ := List.map_eq_cons_iff.mp g8
  simp only [Prod.mk.injEq] at g4 g9
  obtain ⟨rfl, rfl⟩ := g4
  obtain ⟨rfl, rfl⟩ := g9
  -- the times of the request
  have hown : (own (.client i) c.log).map Prod.fst = [.now x, .sendFlush t, .recvFlushed b, .now y] := by
    rw [← actsOf_own, ← hi.trace, hacts]
  have hin0 : (Act.sendFlush t', τ0) ∈ own (.client i) c.log := by
    rw [g1]; simp [own]
  have hin1 : (Act.recvFlushed b, τ1) ∈ own (.client i) c.log := by
    rw [g1]; simp [own]
  obtain ⟨⟨b1, υ1⟩, m1, k1, rfl, k2⟩ := List.map_eq_cons_iff.mp hown
  obtain ⟨⟨b2, υ2⟩, m2, rfl, rfl, k4⟩ := List.map_eq_cons_iff.mp k2
  obtain ⟨⟨b3, υ3⟩, m3, rfl, rfl, k6⟩ := List.map_eq_cons_iff.mp k4
  obtain ⟨⟨b4, υ4⟩, m4, rfl, rfl, k8⟩ := List.map_eq_cons_iff.mp k6
  have := List.map_eq_nil_iff.mp k8
  subst this
  rw [k1] at hsp hle hin0 hin1
  have n1 : x = υ1 := hi.now (.client i) _ _ (mem_own (by rw [k1]; simp))
  have n2 : y = υ4 := hi.now (.client i) _ _ (mem_own (by rw [k1]; simp))
  simp only [List.mem_cons, Prod.mk.injEq, reduceCtorEq, false_and, or_false, false_or,
    Act.sendFlush.injEq, Act.recvFlushed.injEq, true_and, List.not_mem_nil] at hin0 hin1
  obtain ⟨rfl, rfl⟩ := hin0
  subst hin1
  subst n1 n2
  have s1 := hsp.1 a rfl
  have s2 := hsp.2.1 x rfl
  have s4 := hsp.2.2.2.1 τ1 rfl
  have s5 := hle (.now y, y) (by simp)
  simp only [atLeast] at s1 s2 s4 s5
  have hb : r = .flushed (.ok ⟨knownCache t', timeSub y x⟩) := by rw [← e3]; exact Prog.ret.inj hres
  refine ⟨a, e, timeSub y x, ht, hb, fun hsil => ?_⟩
  -- the times of the worker
  have hsort := hi.sorted
  rw [g1] at hsort
  have hsort1 : ∀ z ∈ lmid, z.2.2 ≤ τ1 := fun z hz =>
    (List.pairwise_append.mp hsort).2.2 z (by simp [hz]) (.client i, .recvFlushed b, τ1)
      List.mem_cons_self
  have hsort0 : ∀ z ∈ lmid, τ0 ≤ z.2.2 := by
    have h1 := (List.pairwise_append.mp (List.pairwise_append.mp hsort).1).1
    have h2 := (List.pairwise_append.mp h1).2.1
    exact fun z hz => (List.pairwise_cons.mp h2).1 z hz
  have hw := hi.worker
  have hown' : own .worker c.log = own .worker l4 ++ (own .worker lmid ++ own .worker (l3 ++
      (.client i, .recvFlushed b, τ1) :: lpost)) := by
    rw [g1]
    simp [own]
  rw [hown'] at hw
  have hseg := (hw.right).left
  have hwa : (own .worker lmid).map Prod.fst = actsOf .worker mid := by
    rw [← actsOf_own, g10]
  have hseg0 : Spaced (some τ0) (own .worker lmid) := by
    cases hs : own .worker lmid with
    | nil => trivial
    | cons z zs =>
      obtain ⟨za, zτ⟩ := z
      rw [hs] at hseg hwa
      refine ⟨fun v hv => ?_, hseg.2⟩
      cases hv
      have hz : atLeast za = 0 := by
        rw [← hwa] at e5
        rcases path_uncons e5 with ⟨h0, -⟩ | ⟨a', p', acts', h0, h1, -⟩
        · cases h0
        · rw [List.map_cons, List.cons.injEq] at h0
          rw [← h0.1] at h1
          exact flush_head h1
      have := hsort0 (.worker, za, zτ) (mem_own (by rw [hs]; simp))
      rw [hz]
      simpa using this
  have hsum := hseg0.sum (T := τ1) ?_ fun z hz => hsort1 (.worker, z.1, z.2) (mem_own hz)
  · rw [hwa] at hsum
    have hlen : (flushLoad t' : Int) * 1000000000 ≤ waited (actsOf .worker mid) := by
      have h1 : waited (effects (actsOf .worker mid)) ≤ _ := filter_waited _ (actsOf .worker mid)
      have hq : Quiet (effects (actsOf .worker mid)) := by
        have key : ∀ z, z ∈ effects (actsOf .worker mid) → ∃ τ, a ≤ τ ∧ (.worker, z, τ) ∈ c.log := by
          intro z hz
          have hz := (List.mem_filter.mp hz).1
          rw [← hwa] at hz
          obtain ⟨⟨z', τ⟩, hz1, rfl⟩ := List.mem_map.mp hz
          have hz2 := mem_own hz1
          refine ⟨τ, ?_, g1 ▸ List.mem_append_left _ (List.mem_append_left _
            (List.mem_append_right _ (List.mem_cons_of_mem _ hz2)))⟩
          have := hsort0 _ hz2
          simp only at this
          omega
        constructor
        · intro e' q' err hz
          obtain ⟨τ, h1, h2⟩ := key _ hz
          exact (hsil .worker τ h1).1 e' q' err h2
        · intro bs n err hz
          obtain ⟨τ, h1, h2⟩ := key _ hz
          exact (hsil .worker τ h1).2 bs n err h2
      rw [quiet_runs e4 hq, targets_load] at h1
      omega
    have hts : flushLoad t' ≤ 6 := by
      unfold flushLoad
      repeat' split
      all_goals decide
    refine ⟨by omega, ?_, fun h10 => ?_⟩
    · unfold timeSub
      repeat' split
      all_goals omega
    · subst h10
      have : flushLoad 10 = 6 := by decide
      unfold InTime writeTimeout
      omega
  · have := (List.pairwise_append.mp hsort).2.2 (.client i, .sendFlush t', τ0) (by simp) _
      (List.mem_cons_self)
    exact this

/-! ## Examples -/

/-- A unit that takes everything and answers nothing. -/
def silentUnit : Setup Unit :=
  { cv := amd64
    line := { write := fun bs _ => ((bs.length, none), ()), read := fun _ _ => (.ret {} (some .timeout), ()) }
    env := fun _ _ => True }

/-- `n` steps of goroutine `t`. -/
def tsteps (n : Nat) (t : Tid) : List TCmd := List.replicate n (.run (.go t))

/-- A refresh of one cache by goroutine `t` from a unit that does not answer. -/
def silentRefresh (t : Tid) : List TCmd := tsteps 5 t ++ [.wait 1000000000] ++ tsteps 3 t

/-- The hypotheses of C81 are met: while another request is answered in between, the flush of all
caches is answered after six seconds. -/
example : (Timed.execs silentUnit ([.run (.arrive (.flush 10)), .wait 7] ++ tsteps 2 (.client 0) ++
      silentRefresh .worker ++ [.run (.arrive .getTemps)] ++ tsteps 3 (.client 1) ++
      silentRefresh .worker ++ silentRefresh .worker ++ silentRefresh .worker ++ silentRefresh .worker ++
      silentRefresh .worker ++ tsteps 2 (.client 0))
      { sys := Sys.initial { line := (), clock := 50000000000 } }).any (fun (c : Timed Unit) =>
    c.arrived == [50000000000, 51000000007] && c.last (.client 0) == some 56000000007 &&
    match c.sys.clients.map Client.prog with
    | [.ret (.flushed (.ok a)), .ret (.temps (.ok _))] => a.success && a.reqTime == 6000000000
    | _ => false) = true := by decide

set_option maxRecDepth 4000 in
/-- The hypotheses of C56 are met: a unit that never reports the speed asked for, with another
request answered in between. -/
example : (Timed.execs { cv := amd64, line := sampleLine samplePayload }
      ([.run (.arrive (.setSpeed 1 false)), .run (.arrive .getFans)] ++ tsteps 59 (.client 0) ++
        tsteps 3 (.client 1) ++ tsteps 73 (.client 0))
      { sys := Sys.initial ({ line := 0, profiles :=
          ⟨{ currentMode := 2, inAway := 15, outAway := 15 }, 0⟩ } : World UInt8) }).any
      (fun c => c.arrived == [0, 0] && c.last (.client 0) == some 5000000000 &&
        match c.sys.clients.map Client.prog with
        | [.ret (.speed (.err (.internal .pollFailed))), .ret (.fans (.ok _))] => true
        | _ => false) = true := by decide

/-- Without the second that a read takes until it times out there is no such execution. -/
example : (Timed.execs silentUnit ([.run (.arrive (.flush 2))] ++ tsteps 2 (.client 0) ++
      tsteps 6 .worker) { sys := Sys.initial { line := () } }).isSome = false := by decide

end Comfo.Props
