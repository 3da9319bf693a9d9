import Verif.Lemmas.Age
import Verif.Spec.Age
import Verif.Props.Served
/-!
# How old served values are, in every interleaving: C64
-/
namespace Comfo.Props
open Spec

theorem mem_actsOf {t : Tid} {a : Act} {tr : List (Tid × Act)} (h : a ∈ actsOf t tr) : (t, a) ∈ tr := by
  unfold actsOf at h
  rw [List.mem_filterMap] at h
  obtain ⟨⟨u, b⟩, h1, h2⟩ := h
  simp only at h2
  split at h2
  · rename_i hu
    simp only [Option.some.injEq] at h2
    rw [← hu, ← h2]; exact h1
  · cases h2

theorem post_tick {k : Tick} {id : CacheId} (hid : id ∈ tier k) : (onTick k).Post fun acts _ =>
    ∃ ts, .now ts ∈ acts ∧
      ((∃ c, .load id c ∈ acts ∧ ts - 4500000000 ≤ c.last) ∨ .note id ts ∈ acts) := by
  have key : ∀ i j, id = i ∨ id = j →
      ((update i false).bind fun _ => update j false).Post fun acts _ =>
    ∃ ts, .now ts ∈ acts ∧
      ((∃ c, .load id c ∈ acts ∧ ts - 4500000000 ≤ c.last) ∨ .note id ts ∈ acts) := by
    intro i j h
    refine (post_unforced i).seq fun as _ ha => ?_
    refine (post_unforced j).mono fun bs _ hb => ?_
    rcases h with rfl | rfl
    · obtain ⟨ts, h1, h2⟩ := ha
      refine ⟨ts, List.mem_append_left _ h1, ?_⟩
      rcases h2 with ⟨c, h2, h3⟩ | h2
      · exact .inl ⟨c, List.mem_append_left _ h2, h3⟩
      · exact .inr (List.mem_append_left _ h2)
    · obtain ⟨ts, h1, h2⟩ := hb
      refine ⟨ts, List.mem_append_right _ h1, ?_⟩
      rcases h2 with ⟨c, h2, h3⟩ | h2
      · exact .inl ⟨c, List.mem_append_right _ h2, h3⟩
      · exact .inr (List.mem_append_right _ h2)
  cases k <;> exact key _ _ (by simpa [tier] using hid)

/-- What C64 rests on: only the refresh for this tick must not fail. -/
theorem tick_age {S : Setup σ} {w : World σ} (hw : ∀ id, (w.get id).last ≤ w.clock)
    {s₀ s₁ s₂ : Sys σ} {k : Tick} {id : CacheId} (hid : id ∈ tier k)
    (h₀ : Reachable S (Sys.initial w) s₀) (hidle : s₀.worker = .ret ())
    (h₁ : Reachable S { s₀ with worker := onTick k } s₁) (hidle₁ : s₁.worker = .ret ())
    {ext : List (Tid × Act)} (hext : s₁.sh.trace = s₀.sh.trace ++ ext)
    (hok : ∀ as bs ts, actsOf .worker ext = as ++ bs → Path (onTick k) as (.ret ()) → .note id ts ∈ as →
      ∃ v, (.worker, Act.store id { val := v, last := ts }) ∈ ext)
    (h₂ : Reachable S s₁ s₂) {j : Nat} (hj : s₁.clients.length ≤ j) {r : Resp}
    (ha : Answered s₂ j (getCall id) r) :
    ∃ pre c post, s₂.sh.trace = pre ++ (.client j, .load id c) :: post ∧
      c = current id (w.get id) pre ∧ r = getAnswer id c.val ∧
      s₀.sh.world.clock - 4500000000 ≤ c.last := by
  have hr₁ : Reachable S (Sys.initial w) s₁ :=
    reach_trans (.step h₀ (.tick k hidle)) h₁
  have hr₂ := reach_trans hr₁ h₂
  obtain ⟨mid, c, post, e1, e2, e3⟩ := C58_no_going_back hr₁ h₂ hj ha
  refine ⟨_, c, post, e1, e2, e3, ?_⟩
  obtain ⟨g, hi⟩ := inv5 hw hr₂
  have hG : Glob5 g s₂.sh := hi.glob
  obtain ⟨ext', x1, x2, x3, x4⟩ := since h₁
  have : ext' = ext := by
    have : s₀.sh.trace ++ ext' = s₀.sh.trace ++ ext := by rw [← hext]; exact x1.symm
    exact List.append_cancel_left this
  subst this
  have hpath : ∃ as bs, actsOf .worker ext' = as ++ bs ∧ Path (onTick k) as (.ret ()) := by
    rcases x4 with x4 | x4
    · exact ⟨_, [], by simp, hidle₁ ▸ x4⟩
    · exact x4
  obtain ⟨as, bs, y1, y2⟩ := hpath
  obtain ⟨ts, z1, z2⟩ := (post_tick hid).path y2
  have up : ∀ {a}, a ∈ as → (Tid.worker, a) ∈ ext' := fun h => mem_actsOf (y1 ▸ List.mem_append_left _ h)
  have hts : s₀.sh.world.clock ≤ ts := x3 _ _ (up z1)
  have low : ∀ {a l}, (Tid.worker, a) ∈ ext' → stampOf id a = some l → l ≤ c.last := by
    intro a l hm hl
    refine hG.mono id _ _ c post e1 .worker a l ?_ hl
    rw [hext]
    exact List.mem_append_left _ (List.mem_append_right _ hm)
  rcases z2 with ⟨c', z2, z3⟩ | z2
  · have := low (up z2) (show stampOf id (.load id c') = some c'.last by simp [stampOf])
    omega
  · obtain ⟨v, hv⟩ := hok as bs ts y1 y2 z2
    have := low hv (show stampOf id (.store id ⟨v, ts⟩) = some ts by simp [stampOf])
    omega

/-- **C64** Timer `k` fires in `s₀`, and the worker has dealt with that by `s₁`, where it waits again;
none of its refreshes failed. Then whoever asks afterwards for one of the caches timer `k` is
responsible for gets a value that was read from the unit no earlier than 4.5 s before the timer
fired, whatever other requests, flushes and ticks came in between or come later. (`c.last` is when
the refresh began that brought the value, see `Spec.current`.) -/
theorem C64_bounded_age {S : Setup σ} {w : World σ} (hw : ∀ id, (w.get id).last ≤ w.clock)
    {s₀ s₁ s₂ : Sys σ} {k : Tick} {id : CacheId} (hid : id ∈ tier k)
    (h₀ : Reachable S (Sys.initial w) s₀) (hidle : s₀.worker = .ret ())
    (h₁ : Reachable S { s₀ with worker := onTick k } s₁) (hidle₁ : s₁.worker = .ret ())
    {ext : List (Tid × Act)} (hext : s₁.sh.trace = s₀.sh.trace ++ ext) (hok : WorkerSucceeds id ext)
    (h₂ : Reachable S s₁ s₂) {j : Nat} (hj : s₁.clients.length ≤ j) {r : Resp}
    (ha : Answered s₂ j (getCall id) r) :
    ∃ pre c post, s₂.sh.trace = pre ++ (.client j, .load id c) :: post ∧
      c = current id (w.get id) pre ∧ r = getAnswer id c.val ∧
      s₀.sh.world.clock - 4500000000 ≤ c.last :=
  tick_age hw hid h₀ hidle h₁ hidle₁ hext
    (fun as bs ts y1 _ z => hok ts (mem_actsOf (y1 ▸ List.mem_append_left _ z))) h₂ hj ha

/-- The hypotheses are met: ten minutes after the start the slow timer fires, the worker refreshes
fan profiles and bypass while a request reads the old bypass, and then another request gets the new
profiles. -/
example : (Sys.execs demo ([.arrive .getBypass, .tick .slow] ++ steps 11 .worker ++
      steps 3 (.client 0) ++ steps 11 .worker ++ [.arrive .getProfiles] ++ steps 3 (.client 1))
      (Sys.initial { demoStart with clock := 600000000000 })).any (fun (s : Sys UInt8) =>
    s.worker.waits &&
    (s.sh.trace.any fun x => match x with
      | (.worker, .note .profiles t) => t == 600000000000
      | _ => false) &&
    (s.sh.trace.any fun x => match x with
      | (.worker, .store .profiles e) => e.last == 600000000000
      | _ => false) &&
    match s.clients.map Client.prog with
    | [.ret (.bypass (.ok a)), .ret (.profiles (.ok b))] => a.factor == 0 && b.currentMode == 2
    | _ => false) = true := by decide

theorem runs_note {ids : List CacheId} {acts : List Act} (h : RefreshRuns ids acts) {id : CacheId}
    (hid : id ∈ ids) : ∃ ts, .note id ts ∈ acts := by
  induction h with
  | nil => cases hid
  | cons h1 h2 ih =>
    rcases List.mem_cons.mp hid with rfl | hid
    · cases h1 with
      | failed t => exact ⟨t, by simp⟩
      | good t => exact ⟨t, by simp⟩
    · obtain ⟨ts, h⟩ := ih hid
      exact ⟨ts, List.mem_append_right _ h⟩

/-- **C47** in every interleaving: a `FlushCache` request that arrives after `s₀` is answered by
`s₁`. Between handing it to the worker and the answer, `mid`, the worker refreshed the caches asked
for. If that refresh of cache `id` did not fail, whoever asks for cache `id` after `s₁` gets a value
that was asked of the unit after the flush request arrived. *Missing from the full property:* the
refresh may fail, the answer is the same then (`C47_flush_fresh_violated`). -/
theorem C47_request_partial {S : Setup σ} {w : World σ} (hw : ∀ id, (w.get id).last ≤ w.clock)
    {s₀ s₁ : Sys σ} (h₀ : Reachable S (Sys.initial w) s₀) (h₁ : Reachable S s₀ s₁)
    {i : Nat} (hi : s₀.clients.length ≤ i) {t : Int} {id : CacheId}
    (hid : id ∈ (flushTargets t).getD []) {r : Resp} (ha : Answered s₁ i (.flush t) r) :
    ∃ pre mid post n, r = .flushed (.ok ⟨true, n⟩) ∧
      s₁.sh.trace = s₀.sh.trace ++ pre ++ (.client i, .sendFlush t) :: mid ++
        [(.worker, .sendFlushed true), (.client i, .recvFlushed true)] ++ post ∧
      (∃ ts, (.worker, .note id ts) ∈ mid) ∧
      (WorkerSucceeds id mid → ∀ s₂ j r', Reachable S s₁ s₂ → s₁.clients.length ≤ j →
        Answered s₂ j (getCall id) r' →
        ∃ pre c post, s₂.sh.trace = pre ++ (.client j, .load id c) :: post ∧
          c = current id (w.get id) pre ∧ r' = getAnswer id c.val ∧
          s₀.sh.world.clock ≤ c.last) := by
  have hr₁ := reach_trans h₀ h₁
  obtain ⟨g, hv⟩ := inv1 hr₁
  obtain ⟨g₀, hv₀⟩ := inv1 h₀
  have hfresh := hv₀.hist.fresh i hi
  have hpath := (hv.hist.path i _ ha).1
  have hdone : ∃ a b c, actsOf (.client i) s₁.sh.trace =
      [.now a, .sendFlush t, .recvFlushed b, .now c] ∧
      Prog.ret r = .ret (.flushed (.ok ⟨b, timeSub c a⟩)) := by
    rcases flush_path hpath with h | ⟨hne, -⟩
    · exact h
    · exact absurd rfl (hne r)
  obtain ⟨a, b, c, hacts, hr⟩ := hdone
  have hmem : (.client i, .recvFlushed b) ∈ s₁.sh.trace :=
    mem_actsOf (by rw [hacts]; simp)
  obtain ⟨pre, post, hsplit⟩ := List.append_of_mem hmem
  obtain ⟨t', pre', mid, e1, e2, e3, e4, q, e5⟩ := served hr₁ i b pre post hsplit
  have htr : s₁.sh.trace = pre' ++ (.client i, .sendFlush t') ::
      (mid ++ [(.worker, .sendFlushed b), (.client i, .recvFlushed b)] ++ post) := by
    rw [hsplit, e1]; simp
  have htt : t' = t := by
    have : Act.sendFlush t' ∈ actsOf (.client i) s₁.sh.trace := by
      rw [htr, actsOf_append]
      simp [actsOf]
    rw [hacts] at this
    simpa using this
  subst htt
  have hb : b = true := by
    rw [e3, ← targets_known]
    cases hf : flushTargets t' with
    | none => rw [hf] at hid; cases hid
    | some _ => rfl
  subst hb
  obtain ⟨ext, x1, x2, x3, -⟩ := since h₁
  -- the request was handed over after `s₀`
  obtain ⟨pre'', hpre⟩ : ∃ pre'', pre' = s₀.sh.trace ++ pre'' := by
    rcases List.append_eq_append_iff.mp (x1.symm.trans htr) with ⟨l, h, -⟩ | ⟨l, h, h'⟩
    · exact ⟨l, h⟩
    · cases l with
      | nil => exact ⟨[], by simpa using h.symm⟩
      | cons y ys =>
        rw [List.cons_append, List.cons.injEq] at h'
        rw [h, ← h'.1, actsOf_append] at hfresh
        simp [actsOf] at hfresh
  have hmid : ∀ x ∈ mid, x ∈ ext := by
    intro x hx
    have : s₀.sh.trace ++ ext = s₀.sh.trace ++ (pre'' ++ (.client i, .sendFlush t') ::
      (mid ++ [(.worker, .sendFlushed true), (.client i, .recvFlushed true)] ++ post)) := by
      rw [← x1, htr, hpre]; simp
    rw [List.append_cancel_left this]
    simp [hx]
  obtain ⟨ts, hn⟩ := runs_note e4 hid
  have hn : Act.note id ts ∈ actsOf .worker mid := (List.mem_filter.mp hn).1
  have hclock : s₀.sh.world.clock ≤ ts := x3 _ _ (hmid _ (mem_actsOf (flush_times e5 id ts hn)))
  refine ⟨pre'', mid, post, _, Prog.ret.inj hr, by rw [htr, hpre]; simp, ⟨ts, mem_actsOf hn⟩, ?_⟩
  intro hok s₂ j r' h₂ hj ha'
  obtain ⟨m, c, post', y1, y2, y3⟩ := C58_no_going_back hr₁ h₂ hj ha'
  refine ⟨_, c, post', y1, y2, y3, Int.le_trans hclock ?_⟩
  obtain ⟨g', hi'⟩ := inv5 hw (reach_trans hr₁ h₂)
  have hG : Glob5 g' s₂.sh := hi'.glob
  obtain ⟨v, hv'⟩ := hok ts (mem_actsOf hn)
  refine hG.mono id _ _ c post' y1 .worker (.store id ⟨v, ts⟩) ts ?_ (by simp [stampOf])
  rw [x1]
  exact List.mem_append_left _ (List.mem_append_right _ (hmid _ hv'))

/-- The hypotheses are met: ten minutes after the start the temperatures are flushed while another
request waits for the fans; the refresh succeeds, and a request that arrives then gets the new
temperature. -/
example : (Sys.execs demo ([.arrive (.flush 2), .arrive .getFans] ++ steps 2 (.client 0) ++
      steps 4 .worker ++ steps 3 (.client 1) ++ steps 6 .worker ++ steps 2 (.client 0) ++
      [.arrive .getTemps] ++ steps 3 (.client 2))
      (Sys.initial { demoStart with clock := 600000000000 })).any (fun (s : Sys UInt8) =>
    (s.sh.trace.any fun x => match x with
      | (.worker, .store .temps e) => e.last == 600000000000
      | _ => false) &&
    match s.clients.map Client.prog with
    | [.ret (.flushed (.ok a)), .ret (.fans _), .ret (.temps (.ok b))] => a.success && b.comfort == 21
    | _ => false) = true := by decide

/-- `StartCaches` leaves time stamps that are not in the future, whatever the unit does. -/
theorem C64_start {L : Line σ} (hL : L.NoPanic) (line : σ) {clock : Int} (hc : 0 ≤ clock)
    (adv : List Nat) (id : CacheId) :
    let w := (startCaches.run L (World.initial line clock adv)).2
    (w.get id).last ≤ w.clock := by
  have h0 : ((World.initial line clock adv).get id).last ≤ (World.initial line clock adv).clock := by
    cases id <;> exact hc
  have gu := good_update hL
  have : Good L startCaches := good_bind (gu _ _) fun _ => good_bind (gu _ _) fun _ =>
    good_bind (gu _ _) fun _ => good_bind (gu _ _) fun _ => good_bind (gu _ _) fun _ => gu _ _
  exact (evolves_last (run_evolves this _) id h0).2.1

/-- At the start every cache is read from the unit, at a time that is in the past afterwards. -/
example : let w := (startCaches.run demo.line (World.initial 0 600000000000 [7, 7, 7])).2
    (w.temps.last, w.errors.last, w.clock) = (600000000021, 600000000021, 600000000021) ∧
    w.temps.val.comfort = 21 := by decide +kernel

end Comfo.Props
