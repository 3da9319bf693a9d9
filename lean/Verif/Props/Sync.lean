import Verif.Lemmas.Interleave
import Verif.Lemmas.Exec
/-!
# Properties of all goroutines together: C27, C30, C31, C32, C34, C48

The theorems are about every state that is reachable by any interleaving of any number of requests
and the cache worker (`Verif/Model/Sys.lean`), with any line, starting from any world.
-/
namespace Comfo.Props
open Spec

/-! ## The examples' setting -/

/-- The sample unit, all requests allowed. -/
def demo : Setup UInt8 where
  cv := amd64
  line := sampleLine samplePayload

def demoStart : World UInt8 := { line := 0 }

theorem demo_noPanic : demo.line.NoPanic := sampleLine_noPanic samplePayload

/-- `n` steps of goroutine `t`. -/
def steps (n : Nat) (t : Tid) : List Cmd := List.replicate n (.go t)

def Prog.isRet : Prog α → Bool
  | .ret _ => true
  | _ => false

theorem isRet_iff {p : Prog α} (h : Prog.isRet p = true) : ∃ a, p = .ret a := by
  cases p <;> simp_all [Prog.isRet]

/-! ## C27 -/

/-- **C27** (1) The traffic on the line is a series of whole queries, each made by one goroutine,
followed by at most one query that has begun and not ended; whoever makes it holds `pm`. -/
theorem C27_no_interleaving {S : Setup σ} {w : World σ} {s : Sys σ}
    (h : Reachable S (Sys.initial w) s) :
    ∃ (blocks : List (Tid × List IoEv)) (t₀ : Tid) (part : List IoEv),
      (∀ b ∈ blocks, WholeQuery b.2) ∧ PartOfQuery part ∧
      (part ≠ [] → ⟨.pm, true, t₀⟩ ∈ s.sh.held) ∧
      lineEvents s.sh.trace = blocks.flatMap (fun b => byTid b.1 b.2) ++ byTid t₀ part := by
  obtain ⟨g, hi⟩ := inv1 h
  have hG : Glob1 g s.sh := hi.glob
  obtain ⟨blocks, t₀, h1, -, h3⟩ := hG.serial
  exact ⟨blocks, t₀, _, h1, hG.tx_part t₀, fun hn => (hG.held_iff _ _ _).1 (hG.tx_pm t₀ hn), h3⟩

theorem map_toAct_inj {a b : List IoEv} (h : a.map toAct = b.map toAct) : a = b := by
  induction a generalizing b with
  | nil => cases b with
    | nil => rfl
    | cons y b => cases h
  | cons x a ih => cases b with
    | nil => cases h
    | cons y b =>
      simp only [List.map_cons, List.cons.injEq] at h
      rw [ih h.2]
      congr 1
      have := h.1
      cases x <;> cases y <;> simp_all [toAct]

theorem transaction_line {cmd : UInt8} {d : List UInt8} {e : Bool} {evs : List IoEv}
    {r : Packet × Option Err} (h : Transaction cmd d e evs r) :
    (evs.map toAct).filter (fun | .wrote _ _ | .got _ _ => true | _ => false) = evs.map toAct := by
  cases h <;> rfl

/-- **C27** (2) The traffic of a query that has returned is in one piece, belongs to its own
request, and its result is what this traffic says: no query gets the reply to another one. -/
theorem C27_own_reply {S : Setup σ} {w : World σ} {s : Sys σ} (h : Reachable S (Sys.initial w) s)
    {i : Nat} {p : Packet} (hp : p.data.length ≤ 255) {r : Resp}
    (ha : Answered s i (.libQuery p) r) :
    ∃ before evs after q e, r = .packet (q, e) ∧ Transaction p.command p.data p.expect evs (q, e) ∧
      lineEvents s.sh.trace = before ++ byTid (.client i) evs ++ after ∧
      ∀ x ∈ before ++ after, x.1 ≠ .client i := by
  obtain ⟨g, hi⟩ := inv1 h
  have hpath := (hi.hist.path i _ ha).1
  have := path_effects (P := fun _ _ => True) hpath
    (ok_map (Q := fun g' r' => ∃ evs q e, g' = evs.map toAct ∧ r' = .packet (q, e) ∧
      Transaction p.command p.data p.expect evs (q, e))
      (ok_mono (rl_query (g := []) p hp) fun g' r' ⟨evs, h1, h2⟩ => ⟨evs, r'.1, r'.2, h1, rfl, h2⟩))
  obtain ⟨evs, q, e, h1, h2, h3⟩ := this
  have htr : traffic (.client i) (lineEvents s.sh.trace) = evs := by
    have := effects_traffic (.client i) s.sh.trace
    rw [h1] at this
    exact (map_toAct_inj ((transaction_line h3).symm.trans this)).symm
  obtain ⟨before, after, h4, h5⟩ := own_contiguous hi.glob h3 htr
  exact ⟨before, evs, after, q, e, h2, h3, h4, h5⟩

/-- **C27** (3) The same for the getters of the library: a value returned without error is the
decoded reply to the request that was made. -/
theorem C27_own_value {S : Setup σ} {w : World σ} {s : Sys σ} (h : Reachable S (Sys.initial w) s)
    {i : Nat} {id : CacheId} {r : Resp} (ha : Answered s i (.libGet id) r) :
    ∃ before evs after q e v e', r = .value id (v, e') ∧
      Transaction (requestCode id) [] true evs (q, e) ∧
      (e' = none ↔ (outcome id q e).isSome) ∧ (e' = none → outcome id q e = some v) ∧
      lineEvents s.sh.trace = before ++ byTid (.client i) evs ++ after ∧
      ∀ x ∈ before ++ after, x.1 ≠ .client i := by
  obtain ⟨g, hi⟩ := inv1 h
  have hpath := (hi.hist.path i _ ha).1
  have := path_effects (P := fun _ _ => True) hpath
    (ok_map (Q := fun g' r' => ∃ evs q e v e', g' = evs.map toAct ∧ r' = .value id (v, e') ∧
      Transaction (requestCode id) [] true evs (q, e) ∧
      (e' = none ↔ (outcome id q e).isSome) ∧ (e' = none → outcome id q e = some v))
      (ok_mono (rl_fetch (g := []) id)
        fun g' r' ⟨evs, q, e, h1, h2, h3, h4⟩ => ⟨evs, q, e, r'.1, r'.2, h1, rfl, h2, h3, h4⟩))
  obtain ⟨evs, q, e, v, e', h1, h2, h3, h4, h5⟩ := this
  have htr : traffic (.client i) (lineEvents s.sh.trace) = evs := by
    have := effects_traffic (.client i) s.sh.trace
    rw [h1] at this
    exact (map_toAct_inj ((transaction_line h3).symm.trans this)).symm
  obtain ⟨before, after, h6, h7⟩ := own_contiguous hi.glob h3 htr
  exact ⟨before, evs, after, q, e, v, e', h2, h3, h4, h5, h6, h7⟩

/-- Two queries at once: both have sent nothing, one has the lock, the other cannot go on. -/
example : ((Sys.execs demo
      ([.arrive (.libGet .fans), .arrive (.libGet .temps)] ++ steps 2 (.client 1) ++
        [.go (.client 0)]) (Sys.initial demoStart)).isSome = false) ∧
    ((Sys.execs demo
      ([.arrive (.libGet .fans), .arrive (.libGet .temps)] ++ steps 5 (.client 1) ++
        steps 5 (.client 0)) (Sys.initial demoStart)).any fun s =>
        s.clients.all (fun c => Prog.isRet c.prog) && (lineEvents s.sh.trace).length == 6) = true := by
  decide

/-! ## C30 -/

/-- **C30** (1) As long as a request or the worker is unfinished, someone can take a step; not even
an `RLock` that overtakes a waiting `Lock` is needed. In particular no goroutine unlocks a mutex
it does not hold, and none panics. -/
theorem C30_no_deadlock {S : Setup σ} (hL : S.line.NoPanic) {w : World σ} {s : Sys σ}
    (h : Reachable S (Sys.initial w) s) (hd : ¬ AllDone s) :
    ∃ s', Work S.line s s' ∧ NoOvertaking s s' := by
  obtain ⟨g, hi⟩ := inv1 h
  exact progress hL hi hd

/-- **C30** (2) Work that has begun ends: there is no infinite series of steps without new requests
and ticks. -/
theorem C30_work_ends (L : Line σ) : ¬ ∃ f : Nat → Sys σ, ∀ n, Work L (f n) (f (n + 1)) := by
  rintro ⟨f, hf⟩
  have : ∀ s, ∀ n, f n = s → False := by
    intro s
    induction s using (work_wf L).induction with
    | _ s ih =>
      rintro n rfl
      exact ih _ (hf n) (n + 1) rfl
  exact this _ 0 rfl

/-- **C30** (3) When all have finished, no lock is held. -/
theorem C30_locks_released {S : Setup σ} {w : World σ} {s : Sys σ}
    (h : Reachable S (Sys.initial w) s) (hd : AllDone s) : s.sh.held = [] := by
  obtain ⟨g, hi⟩ := inv1 h
  have hG : Glob1 g s.sh := hi.glob
  match hh : s.sh.held with
  | [] => rfl
  | x :: xs =>
    have hm := (hG.held_iff x.tid x.lock x.excl).2 (by rw [hh]; simp)
    match ht : x.tid with
    | .worker =>
      have := hi.worker
      rw [hd.2] at this
      rw [ht, show g .worker = idle1 from this] at hm
      cases hm
    | .client i =>
      rw [ht] at hm
      match hc : s.clients[i]? with
      | none =>
        rw [show g (.client i) = {} from hi.unborn i (List.getElem?_eq_none_iff.mp hc)] at hm
        cases hm
      | some c =>
        obtain ⟨r, hr⟩ := hd.1 c (List.mem_of_getElem? hc)
        have := (hi.client i c hc).1
        rw [hr] at this
        rw [this.held] at hm
        cases hm

/-- A state in which three goroutines contend: `SetFanProfile` holds the fan lock and waits for
the profiles cache, which the worker holds while its query is under way. -/
def contended : List Cmd :=
  [.arrive (.setProfile 1 40), .arrive (.flush 3), .arrive .getProfiles] ++ steps 2 (.client 1) ++
    steps 5 .worker ++ steps 4 (.client 0)

example : (Sys.execs demo contended (Sys.initial demoStart)).any (fun s =>
      s.sh.held.length == 4 && !(s.clients.all fun c => Prog.isRet c.prog)) = true ∧
    (Sys.execs demo (contended ++ [.go (.client 0)]) (Sys.initial demoStart)).isSome = false ∧
    (Sys.execs demo (contended ++ [.go (.client 2)]) (Sys.initial demoStart)).isSome = false ∧
    (Sys.execs demo (contended ++ [.go .worker]) (Sys.initial demoStart)).isSome = true := by
  decide

/-! ## C31, C32 -/

/-- **C31** A `FlushCache` request that has returned got the answer to its own request: true exactly
for the cache types that exist. Between sending the request and getting the answer, the worker
refreshed exactly the caches asked for, each with its own query. -/
theorem C31_own_answer {S : Setup σ} {w : World σ} {s : Sys σ} (h : Reachable S (Sys.initial w) s)
    {i : Nat} {t : Int} {r : Resp} (ha : Answered s i (.flush t) r) :
    ∃ b n pre mid post, r = .flushed (.ok ⟨b, n⟩) ∧ b = knownCache t ∧
      s.sh.trace = pre ++ (.client i, .sendFlush t) :: mid ++
        [(.worker, .sendFlushed b), (.client i, .recvFlushed b)] ++ post ∧
      RefreshRuns ((flushTargets t).getD []) (effects (actsOf .worker mid)) := by
  obtain ⟨g, hi⟩ := inv1 h
  have hpath := (hi.hist.path i _ ha).1
  rcases flush_path hpath with ⟨a, b, c, hacts, hr⟩ | ⟨hne, -⟩
  · have hmem : (.client i, .recvFlushed b) ∈ s.sh.trace := by
      have : Act.recvFlushed b ∈ actsOf (.client i) s.sh.trace := by rw [hacts]; simp
      simp only [actsOf, List.mem_filterMap] at this
      obtain ⟨⟨u, x⟩, h1, h2⟩ := this
      by_cases hu : u = .client i
      · simp [hu] at h2; rw [hu, h2] at h1; exact h1
      · simp [hu] at h2
    obtain ⟨pre, post, hsplit⟩ := List.append_of_mem hmem
    obtain ⟨t', pre', mid, h1, h2, h3, h4, -⟩ := served h i b pre post hsplit
    have htt : t' = t := by
      have : Act.sendFlush t' ∈ actsOf (.client i) s.sh.trace := by
        rw [hsplit, h1, actsOf_append, actsOf_append, actsOf_append]
        simp [actsOf]
      rw [hacts] at this
      simpa using this
    subst htt
    refine ⟨b, _, pre', mid, post, Prog.ret.inj hr, h3, ?_, h4⟩
    rw [hsplit, h1]; simp
  · exact absurd rfl (hne r)

/-- **C32** (1) From every reachable state, the steps of work that has begun can go on until every
request has its answer; and (`C30_no_deadlock`, `C30_work_ends`) however they go on, they get
there. -/
theorem C32_flush_served {S : Setup σ} (hL : S.line.NoPanic) {w : World σ} {s : Sys σ}
    (h : Reachable S (Sys.initial w) s) :
    (∃ s', Works S.line s s' ∧ AllDone s') ∧
    ∀ s', Works S.line s s' → (∀ s'', ¬ Work S.line s' s'') → AllDone s' := by
  refine ⟨can_finish hL h, fun s' hw hstuck => Classical.byContradiction fun hd => ?_⟩
  obtain ⟨s'', h1, -⟩ := C30_no_deadlock hL (reach_works h hw) hd
  exact hstuck s'' h1

theorem count_prefix {t : Int} {a : Int} {b : Bool} {acts : List Act}
    (h : acts <+: [.now a, .sendFlush t, .recvFlushed b]) (f : Act → Bool) :
    acts.countP f ≤ [Act.now a, .sendFlush t, .recvFlushed b].countP f := h.sublist.countP_le

/-- The request is sent to the worker. -/
def isSend : Act → Bool
  | .sendFlush _ => true
  | _ => false

/-- The answer is received. -/
def isRecv : Act → Bool
  | .recvFlushed _ => true
  | _ => false

/-- **C32** (2) No request is lost or served twice: a `FlushCache` request is handed to the worker
at most once and answered at most once; when it has returned, exactly once each. -/
theorem C32_once {S : Setup σ} {w : World σ} {s : Sys σ} (h : Reachable S (Sys.initial w) s)
    {i : Nat} {t : Int} {c : Client} (hc : s.clients[i]? = some c) (hf : c.call = .flush t) :
    let acts := actsOf (.client i) s.sh.trace
    acts.countP isSend ≤ 1 ∧ acts.countP isRecv ≤ 1 ∧
    ((∃ r, c.prog = .ret r) → acts.countP isSend = 1 ∧ acts.countP isRecv = 1) := by
  obtain ⟨g, hi⟩ := inv1 h
  have hpath := (hi.hist.path i _ hc).1
  rw [hf] at hpath
  rcases flush_path hpath with ⟨a, b, c, hacts, hr⟩ | ⟨hne, a, b, hpre⟩
  · rw [hacts]; exact ⟨Nat.le_refl 1, Nat.le_refl 1, fun _ => ⟨rfl, rfl⟩⟩
  · refine ⟨count_prefix hpre isSend, count_prefix hpre isRecv, ?_⟩
    rintro ⟨r, hr⟩
    exact absurd hr (hne r)

/-- Three flush requests, one for a cache type that does not exist. -/
example : (Sys.execs demo ([.arrive (.flush 1), .arrive (.flush 7), .arrive (.flush 4)] ++
      steps 2 (.client 1) ++ steps 1 (.client 0) ++ steps 1 (.client 2) ++ steps 2 (.client 1) ++
      steps 1 (.client 2) ++ steps 10 .worker ++ steps 2 (.client 2) ++
      steps 1 (.client 0) ++ steps 10 .worker ++ steps 2 (.client 0)) (Sys.initial demoStart)).any
    (fun s => s.clients.all fun c => match c.call, c.prog with
      | .flush t, .ret (.flushed (.ok r)) => r.success == (t == 1 || t == 4)
      | _, _ => false) = true := by decide

/-! ## C34 -/

/-- The caches a request reads without holding their lock. -/
def readsUnlocked : Call → CacheId → Prop
  | .setComfort _, id => id = .temps
  | .setSpeed _ _, id => id = .fans ∨ id = .profiles
  | .setProfile _ _, id => id = .profiles
  | _, _ => False

/-- Goroutine `u` is about to read `id`, `t` about to write it. -/
def ReadWriteRace (s : Sys σ) (t u : Tid) (id : CacheId) : Prop :=
  t ≠ u ∧ (∃ e, Poised s t (.store id e)) ∧ ∃ c, Poised s u (.load id c)

theorem poised_must {S : Setup σ} {g : Tid → G1} {s : Sys σ} (hi : (scheme1 S).Inv g s) {t : Tid}
    {a : Act} (hm : may1 (g t) a) (h : Poised s t a) : must1 (g t) a := by
  cases t with
  | client i =>
    obtain ⟨c, p, hc, hn⟩ := h
    exact (ok_next (hi.client i c hc).1 hn hm).1
  | worker =>
    obtain ⟨p, hn⟩ := h
    exact (ok_next hi.worker hn hm).1

theorem one_holder {g : Tid → G1} {sh : Shared σ} (hG : Glob1 g sh) {t u : Tid} {l : Lock} {b : Bool}
    (ht : (l, true) ∈ (g t).held) (hu : (l, b) ∈ (g u).held) : t = u := by
  have := hG.excl _ ((hG.held_iff _ _ _).1 ht) _ ((hG.held_iff _ _ _).1 hu) rfl rfl
  exact congrArg Held.tid this

/-- **C34** (1) No two goroutines ever write the same cache at the same time. -/
theorem C34_no_write_write {S : Setup σ} {w : World σ} {s : Sys σ}
    (h : Reachable S (Sys.initial w) s) {t u : Tid} {id : CacheId} {e e' : Entry (CVal id)}
    (ht : Poised s t (.store id e)) (hu : Poised s u (.store id e')) : t = u := by
  obtain ⟨g, hi⟩ := inv1 h
  exact one_holder hi.glob (poised_must hi (a := .store id e) trivial ht).2.1 (poised_must hi (a := .store id e') trivial hu).2.1

/-- **C34** (2) Whoever reads a cache while another goroutine writes it is a `SetComfortTemp`,
`SetFanSpeed` or `SetFanProfile` request, and the cache is one of those these requests read without
its lock. -/
theorem C34_racing_reader {S : Setup σ} {w : World σ} {s : Sys σ}
    (h : Reachable S (Sys.initial w) s) {t u : Tid} {id : CacheId}
    (hr : ReadWriteRace s t u id) :
    ∃ i c, u = .client i ∧ s.clients[i]? = some c ∧ readsUnlocked c.call id := by
  obtain ⟨g, hi⟩ := inv1 h
  have hG : Glob1 g s.sh := hi.glob
  obtain ⟨hne, ⟨e, ht⟩, c, hu⟩ := hr
  have h1 := (poised_must hi (a := .store id e) trivial ht).2.1
  have h2 := (poised_must hi (a := .load id c) trivial hu).2
  have hns : (g u).strict id = false := by
    cases hb : (g u).strict id with
    | false => rfl
    | true =>
      obtain ⟨b, hb⟩ := h2 hb
      exact absurd (one_holder hG h1 hb) hne
  cases u with
  | worker => rw [hG.workerStrict id] at hns; cases hns
  | client i =>
    obtain ⟨cl, p, hc, -⟩ := hu
    refine ⟨i, cl, rfl, hc, ?_⟩
    rw [(hi.client i cl hc).2.1] at hns
    cases hcall : cl.call <;> cases id <;> rw [hcall] at hns <;>
      first
        | (simp [readsUnlocked]; done)
        | exact absurd hns (by simp [Call.readsLocked])

/-- **C34** (partial) Without these three requests there is no data race. Missing: with them, there
is one (`C34_violated`). -/
theorem C34_no_race_partial {S : Setup σ}
    (hcalls : ∀ c, S.calls c → ∀ id, ¬ readsUnlocked c id) {w : World σ} {s : Sys σ}
    (h : Reachable S (Sys.initial w) s) : ¬ Race s := by
  rintro ⟨t, u, id, e, hne, ht, ⟨c, hu⟩ | ⟨e', hu⟩⟩
  · obtain ⟨i, cl, -, hc, hr⟩ := C34_racing_reader h ⟨hne, ⟨e, ht⟩, c, hu⟩
    obtain ⟨g, hi⟩ := inv1 h
    exact hcalls _ (hi.call i cl hc) id hr
  · exact hne (C34_no_write_write h ht hu)

/-- **C34** (partial) The boot info, bypass and error caches are never raced on. -/
theorem C34_other_caches_partial {S : Setup σ} {w : World σ} {s : Sys σ}
    (h : Reachable S (Sys.initial w) s) {t u : Tid} {id : CacheId}
    (hid : id = .boot ∨ id = .bypass ∨ id = .errors) : ¬ ReadWriteRace s t u id := by
  intro hr
  obtain ⟨i, c, -, -, hu⟩ := C34_racing_reader h hr
  rcases hid with rfl | rfl | rfl <;> cases hc : c.call <;> rw [hc] at hu <;>
    simp [readsUnlocked] at hu

/-- A schedule: the request `c` runs for `n` steps, then the worker refreshes a cache until it is
about to write it. -/
def raceSchedule (c : Call) (cache : Int) (n : Nat) : List Cmd :=
  [.arrive c, .arrive (.flush cache)] ++ steps n (.client 0) ++ steps 2 (.client 1) ++ steps 8 .worker

theorem race_witness (c : Call) (cache : Int) (n : Nat) (id : CacheId)
    (h : (Sys.execs demo (raceSchedule c cache n) (Sys.initial demoStart)).any (fun s =>
      s.worker.stores id && s.clients[0]?.any fun cl => cl.prog.loads id && cl.call = c) = true) :
    ∃ s p, Reachable demo (Sys.initial demoStart) s ∧ s.clients[0]? = some ⟨c, p⟩ ∧
      ReadWriteRace s .worker (.client 0) id := by
  obtain ⟨s, hs, ht⟩ := exec_witness demoStart _ (fun _ _ => trivial) _ h
  simp only [Bool.and_eq_true] at ht
  obtain ⟨h1, h2⟩ := ht
  cases hc : s.clients[0]? with
  | none => rw [hc] at h2; cases h2
  | some cl =>
    obtain ⟨call, p⟩ := cl
    rw [hc] at h2
    simp only [Option.any_some, Bool.and_eq_true, decide_eq_true_eq] at h2
    obtain ⟨h2, rfl⟩ := h2
    obtain ⟨e, q, hn⟩ := stores_next h1
    obtain ⟨c, q', hn'⟩ := loads_next h2
    exact ⟨s, p, hs, hc, by simp, ⟨e, q, hn⟩, c, _, q', hc, hn'⟩

/-- **C34** (violated) Each of the unlocked reads can race with the worker's refresh after a
`FlushCache`. -/
theorem C34_violated :
    (∀ x ∈ [(Call.setComfort 20, CacheId.temps), (.setSpeed 3 false, .fans),
        (.setSpeed 3 false, .profiles), (.setProfile 1 40, .profiles)],
      ∃ s p, Reachable demo (Sys.initial demoStart) s ∧ s.clients[0]? = some ⟨x.1, p⟩ ∧
        ReadWriteRace s .worker (.client 0) x.2) ∧
    ¬ ∀ s, Reachable demo (Sys.initial demoStart) s → ¬ Race s := by
  have h1 := race_witness (.setComfort 20) 2 1 .temps (by decide)
  have h2 := race_witness (.setSpeed 3 false) 1 21 .fans (by decide)
  have h3 := race_witness (.setSpeed 3 false) 3 2 .profiles (by decide)
  have h4 := race_witness (.setProfile 1 40) 3 2 .profiles (by decide)
  refine ⟨?_, fun hall => ?_⟩
  · intro x hx
    simp only [List.mem_cons, List.not_mem_nil, or_false] at hx
    rcases hx with rfl | rfl | rfl | rfl
    · exact h1
    · exact h2
    · exact h3
    · exact h4
  · obtain ⟨s, p, hs, -, hne, ⟨e, he⟩, c, hc⟩ := h1
    exact hall s hs ⟨.worker, .client 0, .temps, e, hne, he, .inl ⟨c, hc⟩⟩

/-- Requests without the three setters. -/
def quietDemo : Setup UInt8 :=
  { demo with calls := fun c => ∀ id, ¬ readsUnlocked c id }

example : quietDemo.calls .getTemps ∧ quietDemo.calls (.flush 10) ∧ quietDemo.calls (.libSetProfile 1 40) := by
  simp [quietDemo, readsUnlocked]

/-! ## C48 -/

/-- **C48** A request that has returned holds no lock, whatever it was and however it ended. In
particular `UpdatePoll`, called by `SetFanSpeed` only with a speed it has checked, has released the
profiles cache. -/
theorem C48_locks_released {S : Setup σ} {w : World σ} {s : Sys σ}
    (h : Reachable S (Sys.initial w) s) {i : Nat} {c : Call} {r : Resp} (ha : Answered s i c r) :
    ∀ x ∈ s.sh.held, x.tid ≠ .client i := by
  obtain ⟨g, hi⟩ := inv1 h
  have hG : Glob1 g s.sh := hi.glob
  intro x hx ht
  have hm := (hG.held_iff x.tid x.lock x.excl).2 hx
  have hr : Returns c (g (.client i)) r := (hi.client i _ ha).1
  rw [ht, hr.held] at hm
  cases hm

/-- A `SetFanSpeed` request that has returned after polling without success. -/
example : (Sys.execs demo ([.arrive (.setSpeed 3 false)] ++ steps 132 (.client 0))
    (Sys.initial demoStart)).any (fun s => s.sh.held.length == 0 &&
      s.clients.all fun c => match c.prog with
        | .ret (.speed (.err (.internal .pollFailed))) => true
        | _ => false) = true := by decide

end Comfo.Props
