import Verif.Lemmas.Fresh
import Verif.Props.Requests
import Verif.Props.Served
/-!
# Which readings count for a report of SetFanSpeed, in every interleaving: C41
-/
namespace Comfo.Props
open Spec

theorem evOf_toAct_tx {cmd : UInt8} {data : List UInt8} {e : Bool} {evs : List IoEv} {r}
    (h : Transaction cmd data e evs r) : (evs.map toAct).filterMap evOf = evs := by
  cases h <;> rfl

theorem no_store_tx {cmd : UInt8} {data : List UInt8} {x : Bool} {evs : List IoEv} {r}
    (h : Transaction cmd data x evs r) {id : CacheId} {e : Entry (CVal id)} :
    .store id e ∉ evs.map toAct := by
  cases h <;> simp [toAct]

/-- What a goroutine has read itself, given what it had read before and that it was not at it. -/
theorem forced_scan {id i : CacheId} {acts : List Act} (h : ForcedActs i acts)
    (hn : ∀ e, .store id e ∉ acts) (x : Option (CVal id × Int)) :
    (acts.filterMap evOf).foldl (scanEv id) (x, .idle) = (x, .idle) := by
  obtain ⟨t, ra, ⟨qa, q, e, ⟨evs, htx, rfl⟩, rfl⟩, rfl⟩ := h
  by_cases hi : i = id
  · subst hi
    cases ho : outcome i q e with
    | none =>
      have : ((Act.lock (.cache i) :: .now t :: (Act.note i t :: (Act.lock .pm :: evs.map toAct ++
          [.unlock .pm]) ++ [] ++ [.unlock (.cache i)])).filterMap evOf) = .refresh i t :: evs := by
        simp [-List.filterMap_map, List.filterMap_cons, evOf, evOf_toAct_tx htx]
      rw [this, scan_same htx, ho]
    | some v => rw [ho] at hn; exact absurd (by simp) (hn ⟨v, t⟩)
  · have : ∀ l : List Act, l.filterMap evOf = [] →
        ((Act.lock (.cache i) :: .now t :: (Act.note i t :: (Act.lock .pm :: evs.map toAct ++
          [.unlock .pm]) ++ l ++ [.unlock (.cache i)])).filterMap evOf) = .refresh i t :: evs := by
      intro l hl
      simp [-List.filterMap_map, List.filterMap_cons, evOf, evOf_toAct_tx htx, hl]
    rw [this _ (by split <;> rfl), scan_other htx hi]

theorem poll_scan {a b : UInt8} {n : Nat} {acts : List Act} {r : Option SrvErr}
    (h : PollActs a b n acts r) (hn : ∀ e, .store .fans e ∉ acts)
    (x : Option (CVal .fans × Int)) :
    (acts.filterMap evOf).foldl (scanEv .fans) (x, .idle) = (x, .idle) := by
  induction h with
  | zero => rfl
  | hit n u f g hu h1 h2 =>
    rw [List.filterMap_append, List.foldl_append,
      forced_scan hu (fun e he => hn e (List.mem_append_left _ he))]
    rfl
  | missIn n u rest res f hu hf hp ih =>
    rw [List.filterMap_append, List.foldl_append,
      forced_scan hu (fun e he => hn e (List.mem_append_left _ he))]
    exact ih fun e he => hn e (by simp [he])
  | missOut n u rest res f g hu hf hg hp ih =>
    rw [List.filterMap_append, List.foldl_append,
      forced_scan hu (fun e he => hn e (List.mem_append_left _ he))]
    exact ih fun e he => hn e (by simp [he])

theorem forced_store {id : CacheId} {acts : List Act} (h : ForcedActs id acts)
    {e : Entry (CVal id)} (he : .store id e ∈ acts) :
    ∃ mine, acts = .lock (.cache id) :: mine ++ .store id e :: [.unlock (.cache id)] ∧
      ((mine.filterMap evOf).foldl (scanEv id) (none, .idle)).1.isSome := by
  obtain ⟨t, ra, ⟨qa, q, er, ⟨evs, htx, rfl⟩, rfl⟩, rfl⟩ := h
  cases ho : outcome id q er with
  | none => rw [ho] at he; simp [-List.mem_map, no_store_tx htx] at he
  | some v =>
    rw [ho] at he
    have he : e = ⟨v, t⟩ := by simpa [-List.mem_map, no_store_tx htx] using he
    refine ⟨.now t :: .note id t :: (.lock .pm :: evs.map toAct ++ [.unlock .pm]), by rw [he]; simp, ?_⟩
    have : ((Act.now t :: .note id t :: (Act.lock .pm :: evs.map toAct ++
        [.unlock .pm])).filterMap evOf) = .refresh id t :: evs := by
      simp [-List.filterMap_map, List.filterMap_cons, evOf, evOf_toAct_tx htx]
    rw [this, scan_same htx, ho]
    rfl

theorem poll_store {a b : UInt8} {n : Nat} {acts : List Act} (h : PollActs a b n acts none)
    {e : Entry Fans} (he : .store .fans e ∈ acts) :
    ∃ pre mine mid f g, acts = pre ++ .lock (.cache .fans) :: mine ++ .store .fans e :: mid ++
        [.load .fans f, .load .fans g] ∧
      ((mine.filterMap evOf).foldl (scanEv .fans) (none, .idle)).1.isSome ∧
      f.val.inPercent = a ∧ g.val.outPercent = b := by
  generalize hr : (none : Option SrvErr) = r at h
  induction h with
  | zero => cases hr
  | hit n u f g hu h1 h2 =>
    obtain ⟨mine, rfl, hm⟩ := forced_store hu (e := e) (by simpa using he)
    exact ⟨[], mine, [.unlock (.cache .fans)], f, g, by simp, hm, h1, h2⟩
  | missIn n u rest res f hu hf hp ih =>
    rcases List.mem_append.1 he with hx | hx
    · obtain ⟨mine, rfl, hm⟩ := forced_store hu hx
      subst hr
      obtain ⟨pre, f', g', rfl, h1, h2⟩ := poll_last hp
      exact ⟨[], mine, .unlock (.cache .fans) :: .load .fans f :: .sleep 500000000 :: pre, f', g',
        by simp, hm, h1, h2⟩
    · obtain ⟨pre, mine, mid, f', g', rfl, h'⟩ := ih (by simpa using hx) hr
      exact ⟨u ++ .load .fans f :: .sleep 500000000 :: pre, mine, mid, f', g', by simp, h'⟩
  | missOut n u rest res f g hu hf hg hp ih =>
    rcases List.mem_append.1 he with hx | hx
    · obtain ⟨mine, rfl, hm⟩ := forced_store hu hx
      subst hr
      obtain ⟨pre, f', g', rfl, h1, h2⟩ := poll_last hp
      exact ⟨[], mine, .unlock (.cache .fans) :: .load .fans f :: .load .fans g ::
        .sleep 500000000 :: pre, f', g', by simp, hm, h1, h2⟩
    · obtain ⟨pre, mine, mid, f', g', rfl, h'⟩ := ih (by simpa using hx) hr
      exact ⟨u ++ .load .fans f :: .load .fans g :: .sleep 500000000 :: pre, mine, mid, f', g',
        by simp, h'⟩

theorem set_fin {m : UInt8} {acts : List Act} (h : SetActs (.speed m) acts none) :
    ∃ n q, acts = [.lock .pm, .wrote (frame 0x99 [m]) (n, none), .got false (q, none),
      .wrote ack (2, none), .unlock .pm] := by
  rcases h with ⟨bin, q, hb, evs, htx, rfl⟩ | ⟨-, bin, e', -, h⟩
  · have hbin : bin = [m] := by
      simp only [SetRequest.marshalBinary] at hb
      split at hb <;> simp_all
    subst hbin
    cases htx with
    | complete n q hc => exact ⟨n, q, rfl⟩
  · cases h

/-- **C41**, the true part, in every interleaving. Suppose a change is reported and at least one of
the fan queries the request made itself succeeded. Then the two percentages it found to be right — it
looks at them without the lock, one after the other, while others may refresh the cache — have both
been read from the unit, by a query of this or another goroutine that *began* after the unit had
answered the speed command. *Missing from the full property:* if all its fan queries fail, see
`C41_truthful_violated`. -/
theorem C41_fresh_partial {S : Setup σ} {w : World σ} {s : Sys σ}
    (h : Reachable S (Sys.initial w) s) {i : Nat} {abs : UInt32} {rel : Bool} {v : SpeedModified}
    (ha : Answered s i (.setSpeed abs rel) (.speed (.ok v))) (hm : v.modified = true)
    (hq : (lastGood .fans ((actsOf (.client i) s.sh.trace).filterMap evOf)).isSome) :
    ∃ (b : UInt8) (old new late rest : List (Tid × Act)) (f g : Entry Fans) (p : Entry FanProfiles),
      s.sh.trace = old ++ (.client i, .wrote ack (2, none)) :: new ++
        (.client i, .load .fans f) :: late ++ (.client i, .load .fans g) :: rest ∧
      (∃ pre n q, actsOf (.client i) old =
        pre ++ [.wrote (frame 0x99 [b]) (n, none), .got false (q, none)] ∧ written pre = []) ∧
      v.targetSpeed = b.toUInt32 ∧
      (∃ x, x <+: new ∧ (scanAll .fans x).1 = some (f.val, f.last)) ∧
      (∃ x, x <+: new ++ (.client i, .load .fans f) :: late ∧
        (scanAll .fans x).1 = some (g.val, g.last)) ∧
      (.client i, .load .profiles p) ∈ new ∧
      (f.val.inPercent, g.val.outPercent) = profileOf p.val b.toNat := by
  have hx := speed_answered h ha
  generalize hacts : actsOf (.client i) s.sh.trace = acts at hx hq
  cases hx with
  | same t c stop hmm => cases hm
  | set t c m sa p x y pa u stop hmm hne hs hl hpo hu =>
    obtain ⟨m1, m4⟩ := modify_ok hmm
    obtain ⟨n, q, rfl⟩ := set_fin hs
    have hst : ∃ e, .store .fans e ∈ pa := by
      refine Classical.byContradiction fun hn => ?_
      have hn : ∀ e, .store .fans e ∉ pa := fun e he => hn ⟨e, he⟩
      have hu' : ∀ e : Entry (CVal .fans), .store .fans e ∉ u := by
        obtain ⟨t, ra, ⟨qa, q, e, ⟨evs, htx, rfl⟩, rfl⟩, rfl⟩ := hu
        intro e' he
        cases ho : outcome .profiles q e <;> rw [ho] at he <;> simp [-List.mem_map, no_store_tx htx] at he
      unfold lastGood at hq
      simp only [List.cons_append, List.nil_append, List.filterMap_cons, evOf, List.append_assoc,
        List.filterMap_append, List.foldl_append, List.foldl_cons, List.filterMap_nil,
        List.foldl_nil] at hq
      have e0 : scanEv .fans (scanEv .fans (scanEv .fans (none, .idle)
          (.wrote (frame 0x99 [m]) (n, none))) (.got false (q, none))) (.wrote ack (2, none)) =
          (none, .idle) := rfl
      rw [e0, poll_scan hpo hn, forced_scan hu hu'] at hq
      cases hq
    obtain ⟨e, he⟩ := hst
    obtain ⟨pre, mine, mid, f, g, rfl, hmine, hf, hg⟩ := poll_store hpo he
    -- the trace, cut at these actions
    obtain ⟨old, r1, t1, a1, b1⟩ := actsOf_split (t := .client i) (a := .wrote ack (2, none))
      (as := [.now t, .lock .fan, .load .profiles c, .lock .pm, .wrote (frame 0x99 [m]) (n, none),
        .got false (q, none)]) hacts
    obtain ⟨k1, r2, t2, a2, b2⟩ := actsOf_split (a := .load .profiles p)
      (as := [.unlock .pm, .rlock (.cache .profiles)]) b1
    obtain ⟨k2, r3, t3, a3, b3⟩ := actsOf_split (a := .lock (.cache .fans))
      (as := .runlock (.cache .profiles) :: pre)
      (bs := mine ++ .store .fans e :: mid ++ [.load .fans f, .load .fans g] ++ u ++
        [.now stop, .unlock .fan]) (by rw [b2]; simp)
    obtain ⟨own, r4, t4, a4, b4⟩ := actsOf_split (a := .store .fans e) (as := mine)
      (bs := mid ++ [.load .fans f, .load .fans g] ++ u ++ [.now stop, .unlock .fan])
      (by rw [b3]; simp)
    obtain ⟨k5, r5, t5, a5, b5⟩ := actsOf_split (a := .load .fans f) (as := mid)
      (bs := .load .fans g :: u ++ [.now stop, .unlock .fan]) (by rw [b4]; simp)
    obtain ⟨late, rest, t6, a6, b6⟩ := actsOf_split (a := .load .fans g) (as := [])
      (bs := u ++ [.now stop, .unlock .fan]) (by rw [b5]; simp)
    subst t2 t3 t4 t5 t6
    have hl' : (x, y) = profileOf p.val m.toNat := by
      rw [lookup_ok p.val m1 m4, Prod.mk.injEq] at hl
      exact hl.1.symm
    obtain ⟨p1, q1, s1⟩ := fresh_load h (id := .fans) (t := .client i)
      (old := old ++ [(.client i, .wrote ack (2, none))])
      (kept := k1 ++ (.client i, .load .profiles p) :: k2) (mine := own) (later := k5) (e := e) (c := f)
      (post := late ++ (.client i, .load .fans g) :: rest) (by rw [t1]; simp) (by rw [a4]; exact hmine)
    obtain ⟨p2, q2, s2⟩ := fresh_load h (id := .fans) (t := .client i)
      (old := old ++ [(.client i, .wrote ack (2, none))])
      (kept := k1 ++ (.client i, .load .profiles p) :: k2) (mine := own)
      (later := k5 ++ (.client i, .load .fans f) :: late) (e := e) (c := g)
      (post := rest) (by rw [t1]; simp) (by rw [a4]; exact hmine)
    refine ⟨m, old, k1 ++ (.client i, .load .profiles p) :: k2 ++
      (.client i, .lock (.cache .fans)) :: own ++ (.client i, .store .fans e) :: k5, late, rest, f, g,
      p, by rw [t1]; simp, ⟨[.now t, .lock .fan, .load .profiles c, .lock .pm], n, q, a1, rfl⟩, rfl,
      ⟨p1, q1, s1⟩, ⟨p2, ?_, s2⟩, by simp, ?_⟩
    · simpa using q2
    · rw [hf, hg, hl']

/-- The hypotheses are met: between the two looks of the request at the fans, the worker refreshes
them for a flush. -/
example : (Sys.execs demo ([.arrive (.setSpeed 0 true), .arrive (.flush 1)] ++ steps 22 (.client 0) ++
      steps 2 (.client 1) ++ steps 10 .worker ++ steps 13 (.client 0))
    (Sys.initial (stepStart 1))).any (fun (s : Sys UInt8) =>
      (match s.clients.map Client.prog with
        | [.ret (.speed (.ok m)), _] => m.modified
        | _ => false) &&
      (lastGood .fans ((actsOf (.client 0) s.sh.trace).filterMap evOf)).isSome &&
      (lastGood .fans ((actsOf .worker s.sh.trace).filterMap evOf)).isSome) = true := by
  set_option maxRecDepth 8000 in decide +kernel

end Comfo.Props
