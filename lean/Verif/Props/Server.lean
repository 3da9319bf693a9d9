import Verif.Props.Cache
/-!
# Properties of the RPC handlers: C39, C40, C41, C43, C44, C45, C48, C49

As in `Verif/Props/Cache.lean`, each call runs to completion, on any line.
-/
namespace Comfo.Props
open Spec

/-! ## C39 -/

theorem u8_lt {a b : UInt8} : a < b ↔ a.toNat < b.toNat := UInt8.lt_iff_toNat_lt
theorem u8_ext {a b : UInt8} : a = b ↔ a.toNat = b.toNat := UInt8.toNat_inj.symm

/-- **C39** `modifySpeed`: an error is always InvalidArgument, a success is a speed 1 to 4; Abs
together with Rel is rejected; Rel is exactly one more than the cached mode, an empty target exactly
one less, and what would leave 1 to 4 is rejected; an Abs below 256 is taken as it is, or rejected. -/
theorem C39_modify_speed (base : UInt8) (abs : UInt32) (rel : Bool) :
    let r := modifySpeed base abs rel
    (∀ e, r.2 = some e → ∃ arg, e = .invalidArgument arg) ∧
    (r.2 = none → 1 ≤ r.1.toNat ∧ r.1.toNat ≤ 4) ∧
    (abs ≠ 0 ∧ rel = true → r.2 ≠ none) ∧
    (abs = 0 ∧ rel = true → (r.2 = none ↔ base.toNat + 1 ≤ 4) ∧
      (r.2 = none → r.1.toNat = base.toNat + 1)) ∧
    (abs = 0 ∧ rel = false → (r.2 = none ↔ 2 ≤ base.toNat ∧ base.toNat ≤ 5) ∧
      (r.2 = none → r.1.toNat + 1 = base.toNat)) ∧
    (abs ≠ 0 ∧ abs.toNat < 256 ∧ rel = false → (r.2 = none ↔ 1 ≤ abs.toNat ∧ abs.toNat ≤ 4) ∧
      (r.2 = none → r.1.toNat = abs.toNat)) := by
  have hb := base.toNat_lt
  have e1 : (base + 1).toNat = (base.toNat + 1) % 256 := by simp [UInt8.toNat_add]
  have e2 : (base - 1).toNat = (255 + base.toNat) % 256 := by simp [UInt8.toNat_sub]
  have e3 : abs.toUInt8.toNat = abs.toNat % 256 := by simp
  have c1 : (1 : UInt8).toNat = 1 := rfl
  have c4 : (4 : UInt8).toNat = 4 := rfl
  unfold modifySpeed
  by_cases ha : abs = 0 <;> cases rel <;> simp only [ha, ne_eq, not_true_eq_false, not_false_eq_true,
    and_true, and_false, true_and, false_and, if_true, if_false, Bool.false_eq_true, gt_iff_lt,
    u8_lt, e1, e2, e3, c1, c4] <;> (try split) <;> simp <;> omega

/-- Non-vacuity of C39. -/
example : modifySpeed 3 0 true = (4, none) ∧ modifySpeed 4 0 true = (4, some (.invalidArgument (.speedRange 5))) ∧
    modifySpeed 0 0 false = (0, some (.invalidArgument (.speedRange 255))) ∧
    modifySpeed 2 1 true = (0, some (.invalidArgument .bothAbsRel)) ∧ modifySpeed 2 4 false = (4, none) := by
  decide

/-! ## Polling -/

/-- The log of one fan query made while polling, and the reading it gave, if any. -/
def IsPoll (evs : List IoEv) (out : Option Fans) : Prop :=
  ∃ t evs' q e, evs = .refresh .fans t :: evs' ∧ Transaction 0x0B [] true evs' (q, e) ∧
    out = outcome .fans q e

/-- The fan reading known after some queries. -/
def reading (f : Fans) (outs : List (Option Fans)) : Fans := outs.foldl (fun f o => o.getD f) f

/-- The fans run at these percentages. -/
def At (inPct outPct : UInt8) (f : Fans) : Prop := f.inPercent = inPct ∧ f.outPercent = outPct

instance (a b : UInt8) (f : Fans) : Decidable (At a b f) := inferInstanceAs (Decidable (_ ∧ _))

/-- What polling for the percentages `a`, `b` with at most `n` queries does. -/
structure Polled (a b : UInt8) (n : Nat) (w w' : World σ) (res : Option SrvErr)
    (polls : List (List IoEv × Option Fans)) : Prop where
  io : w'.io = w.io ++ (polls.map (·.1)).flatten
  each : ∀ p ∈ polls, IsPoll p.1 p.2
  len : polls.length ≤ n
  fans : w'.fans.val = reading w.fans.val (polls.map (·.2))
  others : ∀ id, id ≠ .fans → w'.get id = w.get id
  early : ∀ k, 0 < k → k < polls.length →
    ¬ At a b (reading w.fans.val ((polls.map (·.2)).take k))
  hit : res = none → polls ≠ [] ∧ At a b w'.fans.val
  miss : ∀ e, res = some e → e = .pollFailed ∧ polls.length = n ∧ (polls ≠ [] → ¬ At a b w'.fans.val)
  time : w.clock ≤ w'.clock
  slow : res ≠ none → w.clock + 500000000 * n ≤ w'.clock

theorem poll_one {L : Line σ} (hL : L.NoPanic) (w : World σ) :
    ∃ w' evs out, (update .fans true).run L w = (some (), w') ∧ w'.io = w.io ++ evs ∧
      IsPoll evs out ∧ w'.fans.val = out.getD w.fans.val ∧
      (∀ id, id ≠ .fans → w'.get id = w.get id) ∧ w.clock ≤ w'.clock := by
  obtain ⟨line, evs, q, e, ht, h⟩ := update_refresh hL (w := w) (id := .fans) (force := true) (.inl rfl)
  refine ⟨_, _, _, h, by rw [store_io, after_io, tick_io], ⟨_, evs, q, e, rfl, ht, rfl⟩, ?_, ?_, ?_⟩
  · have := store_get_same (w.tick.after line (.refresh .fans w.tick.clock :: evs)) .fans
      (outcome .fans q e) w.tick.clock
    have g : ∀ w : World σ, w.fans = w.get .fans := fun _ => rfl
    rw [g, this]
    cases outcome .fans q e with
    | some v => rfl
    | none => rfl
  · intro id hid
    rw [store_get_other _ _ _ hid]; simp
  · rw [store_clock]; exact tick_mono w

theorem poll_run {L : Line σ} (hL : L.NoPanic) (a b : UInt8) (n : Nat) : ∀ w : World σ,
    ∃ w' res polls, (pollLoop a b n).run L w = (some res, w') ∧ Polled a b n w w' res polls := by
  induction n with
  | zero =>
    intro w
    exact ⟨w, some .pollFailed, [], rfl, by simp, by simp, by simp, rfl, fun _ _ => rfl, by simp, by simp,
      by simp, Int.le_refl _, by simp⟩
  | succ n ih =>
    intro w
    obtain ⟨w1, evs, out, h1, hio, hp, hf, ho, hc⟩ := poll_one hL w
    have hrun : (pollLoop a b (n + 1)).run L w =
        if At a b w1.fans.val then (some none, w1)
        else (pollLoop a b n).run L { w1 with clock := w1.clock + (500000000 : Nat) } := by
      rw [pollLoop, run_bind_some h1]
      have g : w1.get .fans = w1.fans := rfl
      simp only [Prog.run]
      by_cases hA : w1.fans.val.inPercent = a
      · rw [g, if_pos hA]
        simp only [Prog.run]
        by_cases hB : w1.fans.val.outPercent = b
        · rw [g, if_pos hB, if_pos ⟨hA, hB⟩]; rfl
        · rw [g, if_neg hB, if_neg (fun h => hB h.2)]; rfl
      · rw [g, if_neg hA, if_neg (fun h => hA h.1)]; rfl
    by_cases hAt : At a b w1.fans.val
    · refine ⟨w1, none, [(evs, out)], by rw [hrun, if_pos hAt], ?_⟩
      exact
        { io := by simp [hio], each := by simpa using hp, len := by simp, fans := by simp [reading, hf]
          others := ho, early := by intro k h1 h2; simp at h2; omega, hit := by simp [hAt]
          miss := by simp, time := hc, slow := by simp }
    · obtain ⟨w2, res, polls, h2, P⟩ := ih { w1 with clock := w1.clock + (500000000 : Nat) }
      refine ⟨w2, res, (evs, out) :: polls, by rw [hrun, if_neg hAt, h2], ?_⟩
      have hrd : ∀ outs, reading w.fans.val (out :: outs) = reading w1.fans.val outs := by
        intro outs; simp [reading, hf]
      exact
        { io := by rw [P.io]; simp [hio]
          each := by
            intro p hp'
            rcases List.mem_cons.1 hp' with rfl | h
            · exact hp
            · exact P.each p h
          len := by have := P.len; simp; omega
          fans := by rw [P.fans, List.map_cons, hrd]
          others := by
            intro id hid
            rw [P.others id hid, ← ho id hid]
            cases id <;> rfl
          early := by
            intro k h1 h2
            obtain ⟨k, rfl⟩ : ∃ j, k = j + 1 := ⟨k - 1, by omega⟩
            rw [List.map_cons, List.take_succ_cons, hrd]
            by_cases hk : k = 0
            · subst hk; simpa [reading] using hAt
            · exact P.early k (by omega) (by simpa using h2)
          hit := fun h => ⟨by simp, (P.hit h).2⟩
          miss := by
            intro e he
            obtain ⟨m1, m2, m3⟩ := P.miss e he
            refine ⟨m1, by simp [m2], fun _ => ?_⟩
            by_cases hp' : polls = []
            · rw [P.fans, hp']; simpa [reading] using hAt
            · exact m3 hp'
          time := by have := P.time; simp only at this; omega
          slow := by intro h; have := P.slow h; simp only at this; omega }

/-- The in and out percentage of a speed. -/
def profileOf (fp : FanProfiles) (speed : Nat) : UInt8 × UInt8 :=
  match speed with
  | 1 => (fp.inAway, fp.outAway)
  | 2 => (fp.inLow, fp.outLow)
  | 3 => (fp.inMid, fp.outMid)
  | _ => (fp.inHigh, fp.outHigh)

theorem speed_cases {m : UInt8} (h1 : 1 ≤ m.toNat) (h4 : m.toNat ≤ 4) :
    m = 1 ∨ m = 2 ∨ m = 3 ∨ m = 4 := by
  have : m.toNat = 1 ∨ m.toNat = 2 ∨ m.toNat = 3 ∨ m.toNat = 4 := by omega
  rcases this with h | h | h | h
  · exact .inl (UInt8.toNat.inj h)
  · exact .inr (.inl (UInt8.toNat.inj h))
  · exact .inr (.inr (.inl (UInt8.toNat.inj h)))
  · exact .inr (.inr (.inr (UInt8.toNat.inj h)))

theorem lookup_ok (fp : FanProfiles) {s : UInt8} (h1 : 1 ≤ s.toNat) (h4 : s.toNat ≤ 4) :
    fp.lookup s = (profileOf fp s.toNat, none) := by
  rcases speed_cases h1 h4 with rfl | rfl | rfl | rfl <;> rfl

/-! ## C48 -/

/-- **C48** (the part about queries; the lock is the subject of
`C48_poll_releases_lock`). Polling for a speed 1 to 4 makes at most 10 fan queries, each known
reading before the last one differs from the target profile, it succeeds only when the last one
agrees with it, and it reports a poll failure only after 10 queries none of which brought it about. -/
theorem C48_poll_bounded {L : Line σ} (hL : L.NoPanic) (tgt : UInt8) (h1 : 1 ≤ tgt.toNat)
    (h4 : tgt.toNat ≤ 4) (w : World σ) :
    ∃ w' res polls, (updatePoll 10 tgt).run L w = (some res, w') ∧
      Polled (profileOf w.profiles.val tgt.toNat).1 (profileOf w.profiles.val tgt.toNat).2 10 w w' res
        polls := by
  obtain ⟨w', res, polls, h, P⟩ := poll_run hL (profileOf w.profiles.val tgt.toNat).1
    (profileOf w.profiles.val tgt.toNat).2 10 w
  refine ⟨w', res, polls, ?_, P⟩
  rw [← h, updatePoll]
  have g : w.get .profiles = w.profiles := rfl
  simp only [Prog.run, g]
  rw [lookup_ok _ h1 h4]
  rfl

/-- Non-vacuity of C48: success at the first query, and failure after ten. -/
example : ((updatePoll 10 2).run (sampleLine samplePayload)
      { line := 0, profiles := ⟨{ inLow := 30, outLow := 35 }, 0⟩ }).1 = some none ∧
    ((updatePoll 10 2).run (sampleLine samplePayload)
      { line := 0, profiles := ⟨{ inLow := 30, outLow := 35 }, 0⟩ }).2.io.length = 4 ∧
    ((updatePoll 10 3).run (sampleLine samplePayload)
      { line := 0, profiles := ⟨{ inLow := 30, outLow := 35 }, 0⟩ }).1 = some (some .pollFailed) ∧
    ((updatePoll 10 3).run (sampleLine samplePayload)
      { line := 0, profiles := ⟨{ inLow := 30, outLow := 35 }, 0⟩ }).2.io.length = 40 := by decide

/-! ## SetFanSpeed: C40, C41 -/

/-- All the ways `SetFanSpeed` can go. -/
theorem setFanSpeed_run {L : Line σ} (hL : L.NoPanic) (abs : UInt32) (rel : Bool) (w : World σ) :
    (∃ b e, modifySpeed w.profiles.val.currentMode abs rel = (b, some e) ∧
      (setFanSpeed abs rel).run L w = (some (.err e), w.tick)) ∨
    (modifySpeed w.profiles.val.currentMode abs rel = (w.profiles.val.currentMode, none) ∧
      ∃ rt, (setFanSpeed abs rel).run L w = (some (.ok
        { modified := false, originalSpeed := w.profiles.val.currentMode.toUInt32
          targetSpeed := w.profiles.val.currentMode.toUInt32, reqTime := rt }), w.tick.tick)) ∨
    (∃ tgt line evs q e, modifySpeed w.profiles.val.currentMode abs rel = (tgt, none) ∧
      tgt ≠ w.profiles.val.currentMode ∧ Transaction 0x99 [tgt] false evs (q, e) ∧
      ((∃ e', e = some e' ∧ (setFanSpeed abs rel).run L w =
          (some (.err (.internal (.lib e'))), w.tick.after line evs)) ∨
       (e = none ∧ ∃ w1 res polls,
          Polled (profileOf w.profiles.val tgt.toNat).1 (profileOf w.profiles.val tgt.toNat).2 10
            (w.tick.after line evs) w1 res polls ∧
          ((∃ e', res = some e' ∧
              (setFanSpeed abs rel).run L w = (some (.err (.internal e')), w1)) ∨
           (res = none ∧ ∃ w2 rt t evs2 r2, (setFanSpeed abs rel).run L w = (some (.ok
              { modified := true, originalSpeed := w.profiles.val.currentMode.toUInt32
                targetSpeed := tgt.toUInt32, reqTime := rt }), w2) ∧
              Transaction 0xCD [] true evs2 r2 ∧
              w2.io = w1.io ++ .refresh .profiles t :: evs2 ∧ w2.fans = w1.fans))))) := by
  have g : w.tick.get .profiles = w.profiles := by rw [tick_get]; rfl
  unfold setFanSpeed
  simp only [Prog.run, g]
  match hm : modifySpeed w.profiles.val.currentMode abs rel with
  | (b, some e) => exact .inl ⟨b, e, rfl, rfl⟩
  | (tgt, none) =>
    right
    by_cases ht : tgt = w.profiles.val.currentMode
    · left
      subst ht
      exact ⟨rfl, timeSub w.tick.tick.clock w.tick.clock, by simp [Prog.run]⟩
    · right
      have hr := C39_modify_speed w.profiles.val.currentMode abs rel
      rw [hm] at hr
      obtain ⟨h1, h4⟩ : 1 ≤ tgt.toNat ∧ tgt.toNat ≤ 4 := hr.2.1 rfl
      have hbin : (SetRequest.speed tgt).marshalBinary = ([tgt], none) := by
        simp only [SetRequest.marshalBinary]
        rw [if_neg]
        intro h
        have := u8_lt.1 h
        have c4 : (4 : UInt8).toNat = 4 := rfl
        omega
      obtain ⟨line, evs, q, e, hs, htx⟩ := setQueryP_run hL hbin (by simp) w.tick
      refine ⟨tgt, line, evs, q, e, rfl, ht, htx, ?_⟩
      have hne : tgt ≠ w.profiles.val.currentMode := ht
      simp only [if_pos hne]
      have hs' : (setSpeedP tgt).run L w.tick = (some e, w.tick.after line evs) := hs
      rw [run_bind_some hs']
      cases e with
      | some e' => exact .inl ⟨e', rfl, rfl⟩
      | none =>
        right
        refine ⟨rfl, ?_⟩
        obtain ⟨w1, res, polls, hp, P⟩ := C48_poll_bounded hL tgt h1 h4 (w.tick.after line evs)
        have hpr : (w.tick.after line evs).profiles = w.profiles := rfl
        rw [hpr] at P
        refine ⟨w1, res, polls, P, ?_⟩
        simp only
        rw [run_bind_some hp]
        cases res with
        | some e' => exact .inl ⟨e', rfl, rfl⟩
        | none =>
          right
          refine ⟨rfl, ?_⟩
          obtain ⟨w2, evs2, q2, e2, hu, hio, ht2, ho, -⟩ := update_forced hL .profiles w1
          simp only
          rw [run_bind_some hu]
          refine ⟨w2.tick, _, _, evs2, (q2, e2), rfl, ht2, hio, ?_⟩
          have := ho .fans (by decide)
          exact this

/-- **C40**, negation: Abs = 257 selects speed 1. -/
theorem C40_abs_rejected_violated : ¬ ∀ (w : World UInt8) (abs : UInt32), abs ≠ 0 →
    ¬ (1 ≤ abs.toNat ∧ abs.toNat ≤ 4) →
    ∃ arg w', (setFanSpeed abs false).run (sampleLine samplePayload) w =
      (some (.err (.invalidArgument arg)), w') ∧ w'.io = w.io := by
  intro h
  obtain ⟨arg, w', h1, h2⟩ := h { line := 0, profiles := ⟨{ currentMode := 2, inAway := 30, outAway := 35 }, 0⟩ } 257
    (by decide) (by decide)
  have : ((setFanSpeed 257 false).run (sampleLine samplePayload)
    { line := 0, profiles := ⟨{ currentMode := 2, inAway := 30, outAway := 35 }, 0⟩ }).1 =
      some (.err (.invalidArgument arg)) := by rw [h1]
  have e : ((setFanSpeed 257 false).run (sampleLine samplePayload)
    { line := 0, profiles := ⟨{ currentMode := 2, inAway := 30, outAway := 35 }, 0⟩ }).1 =
      some (.ok { modified := true, originalSpeed := 2, targetSpeed := 1, reqTime := 0 }) := by decide
  rw [e] at this
  simp at this

/-- **C40**, the true part: an Abs whose lowest byte is not 1 to 4 is rejected and nothing is sent.
*Missing from the full property:* values above 255 with a lowest byte 1 to 4, which the
violation is about. -/
theorem C40_abs_rejected_partial {L : Line σ} (hL : L.NoPanic) (w : World σ) (abs : UInt32)
    (h0 : abs ≠ 0) (h : ¬ (1 ≤ abs.toNat % 256 ∧ abs.toNat % 256 ≤ 4)) :
    ∃ arg w', (setFanSpeed abs false).run L w = (some (.err (.invalidArgument arg)), w') ∧
      w'.io = w.io ∧ w'.line = w.line ∧ ∀ id, w'.get id = w.get id := by
  have hm : ∃ b arg, modifySpeed w.profiles.val.currentMode abs false =
      (b, some (.invalidArgument arg)) := by
    have e3 : abs.toUInt8.toNat = abs.toNat % 256 := by simp
    have c1 : (1 : UInt8).toNat = 1 := rfl
    have c4 : (4 : UInt8).toNat = 4 := rfl
    refine ⟨w.profiles.val.currentMode, .speedRange abs.toUInt8, ?_⟩
    unfold modifySpeed
    simp only [h0, ne_eq, not_false_eq_true, Bool.false_eq_true, and_false, if_false, if_true]
    rw [if_pos]
    rw [gt_iff_lt, u8_lt, u8_lt]
    omega
  obtain ⟨b, arg, hm⟩ := hm
  rcases setFanSpeed_run hL abs false w with ⟨b', e, h1, h2⟩ | ⟨h1, -⟩ | ⟨tgt, _, _, _, _, h1, -⟩
  · rw [hm] at h1
    simp only [Prod.mk.injEq, Option.some.injEq] at h1
    rw [← h1.2] at h2
    exact ⟨arg, _, h2, by simp, by simp, by simp⟩
  · rw [hm] at h1; simp at h1
  · rw [hm] at h1; simp at h1

/-- Non-vacuity of C40. -/
example : ¬ (1 ≤ (5 : UInt32).toNat % 256 ∧ (5 : UInt32).toNat % 256 ≤ 4) ∧
    ((setFanSpeed 5 false).run (sampleLine samplePayload) { line := 0 }).1 =
      some (.err (.invalidArgument (.speedRange 5))) := by decide

/-- What C41 demands of the log when a change to speed `tgt` is reported, apart from what the
fans were read at: one set-speed command carrying `tgt`, answered without error, then one to ten
fan queries, then one query of the profiles. -/
def SpeedChangeLog (tgt : UInt8) (polls : List (List IoEv × Option Fans)) (log : List IoEv) : Prop :=
  ∃ evs q t evs2 r2, log = evs ++ (polls.map (·.1)).flatten ++ .refresh .profiles t :: evs2 ∧
    Transaction 0x99 [tgt] false evs (q, none) ∧ (∀ p ∈ polls, IsPoll p.1 p.2) ∧
    polls ≠ [] ∧ polls.length ≤ 10 ∧ Transaction 0xCD [] true evs2 r2

/-- A line on which every fan query fails. -/
def noFansLine : Line UInt8 := sampleLine fun c => if c = 0x0B then [] else samplePayload c

/-- **C41**, negation: a change is reported although no fan query succeeded, because the fans had
been read at the target percentages before. -/
theorem C41_truthful_violated : ¬ ∀ (L : Line UInt8) (abs : UInt32) (rel : Bool) (w w' : World UInt8)
    (m : SpeedModified), L.NoPanic → (setFanSpeed abs rel).run L w = (some (.ok m), w') →
      m.modified = true → ∃ tgt polls log, m.targetSpeed = tgt.toUInt32 ∧ w'.io = w.io ++ log ∧
        SpeedChangeLog tgt polls log ∧ ∃ f, some f ∈ polls.map (·.2) ∧
          At (profileOf w.profiles.val tgt.toNat).1 (profileOf w.profiles.val tgt.toNat).2 f := by
  intro h
  obtain ⟨tgt, polls, log, -, hio, ⟨evs, q, t, evs2, r2, hlog, ht1, hp, hne, -, ht2⟩, f, hf, -⟩ :=
    h noFansLine 1 false
      { line := 0, fans := ⟨{ inPercent := 30, outPercent := 35 }, 0⟩
        profiles := ⟨{ currentMode := 2, inAway := 30, outAway := 35 }, 0⟩ } _
      { modified := true, originalSpeed := 2, targetSpeed := 1, reqTime := 0 }
      (sampleLine_noPanic _) rfl rfl
  -- a successful poll leaves a six-byte fan reply in the log
  obtain ⟨p, hpm, hpf⟩ := List.mem_map.1 hf
  obtain ⟨t', evs', q', e', hpe, htp, hout⟩ := hp p hpm
  have hgot : ∃ q, IoEv.got true (q, none) ∈ log ∧ q.data.length = 6 := by
    rw [hpf] at hout
    cases e' with
    | some e' => simp [outcome] at hout
    | none =>
      obtain ⟨n, -, hev⟩ := transaction_ok htp
      refine ⟨q', ?_, ?_⟩
      · rw [hlog]
        apply List.mem_append_left
        apply List.mem_append_right
        rw [List.mem_flatten]
        exact ⟨p.1, List.mem_map.2 ⟨p, hpm, rfl⟩, by rw [hpe, hev]; simp⟩
      · by_cases hl : q'.data.length = 6
        · exact hl
        · have : decode .fans q'.data = none := by
            simp [decode, fans_bad hl, okVal]
          simp [outcome, this] at hout
  obtain ⟨q, hq, hl⟩ := hgot
  have hall : log.all (fun | .got true (q, none) => q.data.length != 6 | _ => true) = true := by
    have : log = _ := (List.nil_append log).symm.trans hio.symm
    rw [this]; decide
  have := List.all_eq_true.1 hall _ hq
  simp [hl] at this

theorem reading_mem (outs : List (Option Fans)) : ∀ f, (∃ g, some g ∈ outs) →
    some (reading f outs) ∈ outs := by
  induction outs with
  | nil => simp
  | cons o outs ih =>
    intro f hg
    by_cases h : ∃ g, some g ∈ outs
    · exact List.mem_cons_of_mem _ (ih _ h)
    · have : ∀ f', reading f' outs = f' := by
        intro f'
        clear ih hg
        induction outs generalizing f' with
        | nil => rfl
        | cons o' outs ih =>
          cases o' with
          | some g => exact absurd ⟨g, by simp⟩ h
          | none =>
            exact ih (fun ⟨g, hg⟩ => h ⟨g, List.mem_cons_of_mem _ hg⟩) f'
      obtain ⟨g, hg⟩ := hg
      rcases List.mem_cons.1 hg with rfl | hg
      · have e : reading f (some g :: outs) = reading g outs := rfl
        rw [e, this]; simp
      · exact absurd ⟨g, hg⟩ h

/-- **C41**, the true part. If a change is reported, the log is the one C41 demands, carrying the
reported speed, the server's fan reading at the end is that of the profile cached at the start, and
if at least one fan query succeeded, then one of them gave exactly those percentages. If no change
is reported, or the answer is InvalidArgument, then there was no I/O at all and no cache changed.
*Missing from the full property:* when all fan queries fail, the reading is one from before the
command, see `C41_truthful_violated`. -/
theorem C41_truthful_partial {L : Line σ} (hL : L.NoPanic) (abs : UInt32) (rel : Bool)
    (w w' : World σ) (r : Rpc SpeedModified) (h : (setFanSpeed abs rel).run L w = (some r, w')) :
    (∀ m, r = .ok m → m.modified = true → ∃ tgt polls log, 1 ≤ tgt.toNat ∧ tgt.toNat ≤ 4 ∧
      m.targetSpeed = tgt.toUInt32 ∧ w'.io = w.io ++ log ∧ SpeedChangeLog tgt polls log ∧
      At (profileOf w.profiles.val tgt.toNat).1 (profileOf w.profiles.val tgt.toNat).2 w'.fans.val ∧
      ((∃ f, some f ∈ polls.map (·.2)) → some w'.fans.val ∈ polls.map (·.2))) ∧
    (((∃ m, r = .ok m ∧ m.modified = false) ∨ ∃ arg, r = .err (.invalidArgument arg)) →
      w'.io = w.io ∧ w'.line = w.line ∧ ∀ id, w'.get id = w.get id) := by
  have hr := C39_modify_speed w.profiles.val.currentMode abs rel
  rcases setFanSpeed_run hL abs rel w with ⟨b, e, hm, h2⟩ | ⟨hm, rt, h2⟩ |
    ⟨tgt, line, evs, q, e, hm, hne, ht, h2⟩
  · rw [h] at h2
    simp only [Prod.mk.injEq, Option.some.injEq] at h2
    obtain ⟨rfl, rfl⟩ := h2
    exact ⟨by simp, fun _ => ⟨by simp, by simp, by simp⟩⟩
  · rw [h] at h2
    simp only [Prod.mk.injEq, Option.some.injEq] at h2
    obtain ⟨rfl, rfl⟩ := h2
    refine ⟨?_, fun _ => ⟨by simp, by simp, by simp⟩⟩
    intro m hm' hmod
    injection hm' with hm'
    rw [← hm'] at hmod
    simp at hmod
  · rw [hm] at hr
    obtain ⟨h1, h4⟩ : 1 ≤ tgt.toNat ∧ tgt.toNat ≤ 4 := hr.2.1 rfl
    rcases h2 with ⟨e', -, h2⟩ | ⟨rfl, w1, res, polls, P, h2⟩
    · rw [h] at h2
      simp only [Prod.mk.injEq, Option.some.injEq] at h2
      obtain ⟨rfl, rfl⟩ := h2
      simp
    · rcases h2 with ⟨e', rfl, h2⟩ | ⟨rfl, w2, rt, t, evs2, r2, h2, ht2, hio, hfans⟩
      · rw [h] at h2
        simp only [Prod.mk.injEq, Option.some.injEq] at h2
        obtain ⟨rfl, rfl⟩ := h2
        simp
      · rw [h] at h2
        simp only [Prod.mk.injEq, Option.some.injEq] at h2
        obtain ⟨rfl, rfl⟩ := h2
        obtain ⟨hp, hat⟩ := P.hit rfl
        refine ⟨?_, by simp⟩
        intro m hm' _
        injection hm' with hm'
        refine ⟨tgt, polls, evs ++ (polls.map (·.1)).flatten ++ .refresh .profiles t :: evs2, h1, h4,
          by rw [← hm'], ?_, ⟨evs, q, t, evs2, r2, rfl, ht, P.each, hp, P.len, ht2⟩, ?_, ?_⟩
        · rw [hio, P.io]; simp
        · rw [hfans]; exact hat
        · intro hf
          rw [hfans, P.fans]
          exact reading_mem _ _ hf

/-- Non-vacuity of C41: a change from speed 2 to speed 1, and no change. -/
example : ((setFanSpeed 1 false).run (sampleLine samplePayload)
      { line := 0, profiles := ⟨{ currentMode := 2, inAway := 30, outAway := 35 }, 0⟩ }).1 =
      some (.ok { modified := true, originalSpeed := 2, targetSpeed := 1, reqTime := 0 }) ∧
    ((setFanSpeed 2 false).run (sampleLine samplePayload)
      { line := 0, profiles := ⟨{ currentMode := 2 }, 0⟩ }).1 =
      some (.ok { modified := false, originalSpeed := 2, targetSpeed := 2, reqTime := 0 }) := by decide

/-! ## C56 -/

/-- `comfo.go:65`: the server's `WriteTimeout`, in nanoseconds. `net/http` closes the connection
without a response once a request has taken longer. -/
def httpWriteTimeout : Int := 5000000000

/-- **C56** A `SetFanSpeed` that fails because the fans did not reach the target takes at least
the server's `WriteTimeout`. -/
theorem C56_poll_failure_too_late {L : Line σ} (hL : L.NoPanic) (abs : UInt32) (rel : Bool)
    (w w' : World σ)
    (h : (setFanSpeed abs rel).run L w = (some (.err (.internal .pollFailed)), w')) :
    w'.clock - w.clock ≥ httpWriteTimeout := by
  rcases setFanSpeed_run hL abs rel w with ⟨b, e, hm, h2⟩ | ⟨hm, rt, h2⟩ |
    ⟨tgt, line, evs, q, e, hm, hne, ht, h2⟩
  · rw [h] at h2
    have hr := (C39_modify_speed w.profiles.val.currentMode abs rel).1 e (by rw [hm])
    obtain ⟨arg, rfl⟩ := hr
    simp at h2
  · rw [h] at h2; simp at h2
  · rcases h2 with ⟨e', -, h2⟩ | ⟨rfl, w1, res, polls, P, h2⟩
    · rw [h] at h2; simp at h2
    · rcases h2 with ⟨e', rfl, h2⟩ | ⟨rfl, w2, rt, t, evs2, r2, h2, ht2, hio, hfans⟩
      · rw [h] at h2
        simp only [Prod.mk.injEq, Option.some.injEq, Rpc.err.injEq, Twirp.internal.injEq] at h2
        have := P.slow (by simp)
        have hm := tick_mono w
        rw [h2.2]
        simp only [after_clock] at this
        unfold httpWriteTimeout
        omega
      · rw [h] at h2; simp at h2

/-- Non-vacuity of C56. -/
example : ((setFanSpeed 1 false).run (sampleLine samplePayload)
      { line := 0, profiles := ⟨{ currentMode := 2, inAway := 15, outAway := 15 }, 0⟩ }).1 =
      some (.err (.internal .pollFailed)) := by decide

/-! ## SetFanProfile: C43, C44 -/

theorem setFanProfileP_run {L : Line σ} (hL : L.NoPanic) (mode speed : UInt8)
    (hm : mode.toNat ≤ 3) (hs : speed.toNat ≤ 100) (w : World σ) :
    ∃ line evs q e, Transaction 0xCD [] true evs (q, e) ∧
      ((outcome .profiles q e = none ∧
        ∃ e', (setFanProfileP mode speed).run L w = (some (some e'), w.after line evs)) ∨
       ∃ cfp line2 evs2 q2 e2, outcome .profiles q e = some cfp ∧
        Transaction 0xCF (replaceMode mode.toNat speed (percentages cfp)) false evs2 (q2, e2) ∧
        (setFanProfileP mode speed).run L w = (some e2, w.after line2 (evs ++ evs2))) := by
  have c3 : (3 : UInt8).toNat = 3 := rfl
  have c100 : (100 : UInt8).toNat = 100 := rfl
  obtain ⟨line, evs, q, e, v, e', hr, ht, h1, h2⟩ := fetch_run hL .profiles w
  refine ⟨line, evs, q, e, ht, ?_⟩
  have key : (setFanProfileP mode speed).run L w = (match e' with
      | some e => .unlock .am <| .ret (some e)
      | none => (setQueryP (.fanProfiles (patchProfile mode speed v))).bind fun e =>
        .unlock .am <| .ret e : Prog (Option Err)).run L (w.after line evs) := by
    unfold setFanProfileP
    rw [if_neg (by rw [gt_iff_lt, u8_lt]; omega), if_neg (by rw [gt_iff_lt, u8_lt]; omega)]
    have hr' : getFanProfilesP.run L w = (some (v, e'), w.after line evs) := hr
    rw [Prog.run, run_bind_some hr']
    cases e' <;> rfl
  cases e' with
  | some e' =>
    left
    refine ⟨?_, e', by rw [key]; rfl⟩
    unfold outcome
    cases e with
    | some _ => rfl
    | none =>
      cases hd : decode .profiles q.data with
      | none => rfl
      | some x => simp [hd] at h1
  | none =>
    right
    have hd := h2 rfl
    have he := (h1.1 rfl).1
    subst he
    have hbin : (SetRequest.fanProfiles (patchProfile mode speed v)).marshalBinary =
        (replaceMode mode.toNat speed (percentages v), none) := by
      have : mode = 0 ∨ mode = 1 ∨ mode = 2 ∨ mode = 3 := by
        have h : mode.toNat = 0 ∨ mode.toNat = 1 ∨ mode.toNat = 2 ∨ mode.toNat = 3 := by omega
        rcases h with h | h | h | h
        · exact .inl (UInt8.toNat.inj h)
        · exact .inr (.inl (UInt8.toNat.inj h))
        · exact .inr (.inr (.inl (UInt8.toNat.inj h)))
        · exact .inr (.inr (.inr (UInt8.toNat.inj h)))
      rcases this with rfl | rfl | rfl | rfl <;> rfl
    have hlen : (replaceMode mode.toNat speed (percentages v)).length ≤ 255 := by
      unfold replaceMode percentages
      split <;> simp
    obtain ⟨line2, evs2, q2, e2, hr2, ht2⟩ := setQueryP_run hL hbin hlen (w.after line evs)
    refine ⟨v, line2, evs2, q2, e2, hd, ht2, ?_⟩
    rw [key]
    simp only
    rw [run_bind_some hr2, after_after]
    rfl

/-- The handler after validation. `o` is the cached in-percentage. -/
theorem setFanProfileRpc_eq (L : Line σ) (m t : UInt32) (hm : 1 ≤ m.toNat % 256 ∧ m.toNat % 256 ≤ 4)
    (ht : 15 ≤ t.toNat % 256 ∧ t.toNat % 256 ≤ 100) (w : World σ) :
    (setFanProfileRpc m t).run L w =
      (if (profileOf w.profiles.val (m.toNat % 256)).1 ≠ t.toUInt8 then
        (setFanProfileP (UInt8.ofNat (m.toNat % 256 - 1)) t.toUInt8).bind fun err =>
        match err with
        | some e => .unlock .fan <| .ret (.err (.internal (.lib e)))
        | none =>
          (update .profiles true).bind fun _ =>
          .now fun stop => .unlock .fan <| .ret (.ok
            { modified := true
              originalSpeed := (profileOf w.profiles.val (m.toNat % 256)).1.toUInt32
              targetSpeed := t, reqTime := timeSub stop w.tick.clock : SpeedModified })
      else .now fun stop => .unlock .fan <| .ret (.ok
            { modified := false
              originalSpeed := (profileOf w.profiles.val (m.toNat % 256)).1.toUInt32
              targetSpeed := t, reqTime := timeSub stop w.tick.clock : SpeedModified })
        : Prog (Rpc SpeedModified)).run L w.tick := by
  have e3 : m.toUInt8.toNat = m.toNat % 256 := by simp
  have e4 : t.toUInt8.toNat = t.toNat % 256 := by simp
  have g : w.tick.get .profiles = w.profiles := by rw [tick_get]; rfl
  have c1 : (1 : UInt8).toNat = 1 := rfl
  have c4 : (4 : UInt8).toNat = 4 := rfl
  have c15 : (15 : UInt8).toNat = 15 := rfl
  have c100 : (100 : UInt8).toNat = 100 := rfl
  have n1 : ¬ (m.toUInt8 < 1 ∨ m.toUInt8 > 4) := by rw [gt_iff_lt, u8_lt, u8_lt]; omega
  have n2 : ¬ (t.toUInt8 < 15 ∨ t.toUInt8 > 100) := by rw [gt_iff_lt, u8_lt, u8_lt]; omega
  unfold setFanProfileRpc
  rw [← e3] at hm ⊢
  generalize m.toUInt8 = mm at *
  simp only [Prog.run]
  rw [if_neg n1, if_neg n2]
  rcases speed_cases hm.1 hm.2 with rfl | rfl | rfl | rfl
  · rw [Prog.run, if_pos (by decide)]; simp only [Prog.run, g]; rfl
  · rw [Prog.run, if_neg (by decide), if_pos (by decide)]; simp only [Prog.run, g]; rfl
  · rw [Prog.run, if_neg (by decide), if_neg (by decide), if_pos (by decide)]
    simp only [Prog.run, g]; rfl
  · rw [Prog.run, if_neg (by decide), if_neg (by decide), if_neg (by decide), if_pos (by decide)]
    simp only [Prog.run, g]; rfl

/-- **C43**, negation: Mode = 257, TargetSpeed = 306 is accepted, and the profile of mode 1 is
rewritten to 50 %. -/
theorem C43_profile_args_rejected_violated : ¬ ∀ (w : World UInt8) (m t : UInt32),
    ¬ (1 ≤ m.toNat ∧ m.toNat ≤ 4) ∨ ¬ (15 ≤ t.toNat ∧ t.toNat ≤ 100) →
    ∃ arg w', (setFanProfileRpc m t).run (sampleLine samplePayload) w =
      (some (.err (.invalidArgument arg)), w') ∧ w'.io = w.io := by
  intro h
  obtain ⟨arg, w', h1, h2⟩ := h { line := 0 } 257 306 (by decide)
  have : ((setFanProfileRpc 257 306).run (sampleLine samplePayload) { line := 0 }).1 =
      some (.err (.invalidArgument arg)) := by rw [h1]
  have e : ((setFanProfileRpc 257 306).run (sampleLine samplePayload) { line := 0 }).1 =
      some (.ok { modified := true, originalSpeed := 0, targetSpeed := 306, reqTime := 0 }) := by
    decide
  rw [e] at this
  simp at this

/-- What goes out in that case: the profiles with both percentages of mode 1 set to 50. -/
example : IoEv.wrote (frame 0xCF [50, 35, 55, 50, 30, 50, 75, 70]) (16, none) ∈
    ((setFanProfileRpc 257 306).run (sampleLine samplePayload) { line := 0 }).2.io := by decide

/-- **C43**, the true part: a Mode whose lowest byte is not 1 to 4, or a TargetSpeed whose lowest
byte is not 15 to 100, is rejected and nothing is sent. *Missing from the full property:* values
above 255 whose lowest byte is in range, which the violation is about. -/
theorem C43_profile_args_rejected_partial (L : Line σ) (w : World σ) (m t : UInt32)
    (h : ¬ (1 ≤ m.toNat % 256 ∧ m.toNat % 256 ≤ 4) ∨
      ¬ (15 ≤ t.toNat % 256 ∧ t.toNat % 256 ≤ 100)) :
    ∃ arg w', (setFanProfileRpc m t).run L w = (some (.err (.invalidArgument arg)), w') ∧
      w'.io = w.io ∧ w'.line = w.line ∧ ∀ id, w'.get id = w.get id := by
  have e3 : m.toUInt8.toNat = m.toNat % 256 := by simp
  have e4 : t.toUInt8.toNat = t.toNat % 256 := by simp
  have c1 : (1 : UInt8).toNat = 1 := rfl
  have c4 : (4 : UInt8).toNat = 4 := rfl
  have c15 : (15 : UInt8).toNat = 15 := rfl
  have c100 : (100 : UInt8).toNat = 100 := rfl
  unfold setFanProfileRpc
  simp only [Prog.run]
  by_cases n1 : m.toUInt8 < 1 ∨ m.toUInt8 > 4
  · rw [if_pos n1]
    exact ⟨_, _, rfl, by simp, by simp, by simp⟩
  · rw [if_neg n1]
    have n2 : t.toUInt8 < 15 ∨ t.toUInt8 > 100 := by
      rw [gt_iff_lt, u8_lt, u8_lt] at n1 ⊢; omega
    rw [if_pos n2]
    exact ⟨_, _, rfl, by simp, by simp, by simp⟩

/-- Non-vacuity of C43. -/
example : ((setFanProfileRpc 5 50).run (sampleLine samplePayload) { line := 0 }).1 =
      some (.err (.invalidArgument .modeRange)) ∧
    ((setFanProfileRpc 4 14).run (sampleLine samplePayload) { line := 0 }).1 =
      some (.err (.invalidArgument .targetRange)) := by decide

/-- **C44** `SetFanProfile` with arguments in range. If the cached in-percentage of the mode equals
the target, nothing is sent, no cache changes and Modified is false. Otherwise the profiles are
read; if that fails nothing is written; else they are written back with exactly the in and out
percentage of the mode replaced, and the answer is Modified = true if and only if that command
succeeded. There is no panic. -/
theorem C44_set_fan_profile {L : Line σ} (hL : L.NoPanic) (m t : UInt32)
    (hm : 1 ≤ m.toNat ∧ m.toNat ≤ 4) (ht : 15 ≤ t.toNat ∧ t.toNat ≤ 100) (w : World σ) :
    ∃ r w', (setFanProfileRpc m t).run L w = (some r, w') ∧
      ((profileOf w.profiles.val m.toNat).1.toNat = t.toNat →
        (∃ rt, r = .ok { modified := false, originalSpeed := t, targetSpeed := t, reqTime := rt }) ∧
        w'.io = w.io ∧ w'.line = w.line ∧ ∀ id, w'.get id = w.get id) ∧
      ((profileOf w.profiles.val m.toNat).1.toNat ≠ t.toNat → ∃ evs q e,
        Transaction 0xCD [] true evs (q, e) ∧
        (outcome .profiles q e = none →
          (∃ e', r = .err (.internal (.lib e'))) ∧ w'.io = w.io ++ evs) ∧
        (∀ cfp, outcome .profiles q e = some cfp → ∃ evs2 q2 e2,
          Transaction 0xCF (replaceMode (m.toNat - 1) (UInt8.ofNat t.toNat) (percentages cfp)) false
            evs2 (q2, e2) ∧
          (∀ e', e2 = some e' →
            r = .err (.internal (.lib e')) ∧ w'.io = w.io ++ evs ++ evs2) ∧
          (e2 = none → ∃ rt tt evs3 r3, Transaction 0xCD [] true evs3 r3 ∧
            r = .ok { modified := true
                      originalSpeed := (profileOf w.profiles.val m.toNat).1.toUInt32
                      targetSpeed := t, reqTime := rt } ∧
            w'.io = w.io ++ evs ++ evs2 ++ .refresh .profiles tt :: evs3))) := by
  have e1 : m.toNat % 256 = m.toNat := by omega
  have e2 : t.toNat % 256 = t.toNat := by omega
  have e4 : t.toUInt8.toNat = t.toNat := by simp; omega
  have heq := setFanProfileRpc_eq L m t (by omega) (by omega) w
  rw [e1] at heq
  by_cases ho : (profileOf w.profiles.val m.toNat).1 = t.toUInt8
  · have ho' : (profileOf w.profiles.val m.toNat).1.toNat = t.toNat := by rw [ho, e4]
    rw [if_neg (by simpa using ho)] at heq
    refine ⟨_, w.tick.tick, heq, fun _ => ⟨⟨timeSub w.tick.tick.clock w.tick.clock, ?_⟩,
      by simp, by simp, by simp⟩, fun h => absurd ho' h⟩
    · have : (profileOf w.profiles.val m.toNat).1.toUInt32 = t := by
        apply UInt32.toNat_inj.1
        simpa using ho'
      rw [this]
  · have ho' : (profileOf w.profiles.val m.toNat).1.toNat ≠ t.toNat := by
      intro h; apply ho; rw [u8_ext, h, e4]
    rw [if_pos ho] at heq
    have hmm : (UInt8.ofNat (m.toNat - 1)).toNat = m.toNat - 1 := by simp; omega
    obtain ⟨line, evs, q, e, htx, hrun⟩ := setFanProfileP_run hL (UInt8.ofNat (m.toNat - 1)) t.toUInt8
      (by omega) (by omega) w.tick
    rcases hrun with ⟨hno, e', hrun⟩ | ⟨cfp, line2, evs2, q2, e2', hcfp, htx2, hrun⟩
    · rw [run_bind_some hrun] at heq
      refine ⟨_, _, heq, fun h => absurd h ho', fun _ => ⟨evs, q, e, htx, fun _ => ⟨⟨e', rfl⟩, ?_⟩, ?_⟩⟩
      · simp
      · intro cfp hc; rw [hno] at hc; simp at hc
    · rw [run_bind_some hrun] at heq
      rw [hmm] at htx2
      have et : t.toUInt8 = UInt8.ofNat t.toNat := by rw [u8_ext, e4]; simp; omega
      rw [et] at htx2
      cases e2' with
      | some e' =>
        refine ⟨_, _, heq, fun h => absurd h ho', fun _ => ⟨evs, q, e, htx, ?_, ?_⟩⟩
        · intro hno; rw [hcfp] at hno; simp at hno
        · intro cfp' hc
          rw [hcfp] at hc
          injection hc with hc
          subst hc
          refine ⟨evs2, q2, some e', htx2, ?_, by simp⟩
          intro e'' he
          injection he with he
          subst he
          exact ⟨rfl, by simp⟩
      | none =>
        obtain ⟨w2, evs3, q3, e3, hu, hio, ht3, -, -⟩ := update_forced hL .profiles
          (w.tick.after line2 (evs ++ evs2))
        simp only at heq
        rw [run_bind_some hu] at heq
        refine ⟨_, _, heq, fun h => absurd h ho', fun _ => ⟨evs, q, e, htx, ?_, ?_⟩⟩
        · intro hno; rw [hcfp] at hno; simp at hno
        · intro cfp' hc
          rw [hcfp] at hc
          injection hc with hc
          subst hc
          refine ⟨evs2, q2, none, htx2, by simp, fun _ =>
            ⟨_, (w.tick.after line2 (evs ++ evs2)).tick.clock, evs3, (q3, e3), ht3, rfl, ?_⟩⟩
          · rw [tick_io, hio]; simp

/-- Non-vacuity of C44: the profile of mode 2 changes from 30 % to 40 %. -/
example : ((setFanProfileRpc 2 40).run (sampleLine samplePayload)
      { line := 0, profiles := ⟨{ inLow := 30 }, 0⟩ }).1 =
      some (.ok { modified := true, originalSpeed := 30, targetSpeed := 40, reqTime := 0 }) ∧
    IoEv.wrote (frame 0xCF [15, 40, 55, 15, 40, 50, 75, 70]) (16, none) ∈
      ((setFanProfileRpc 2 40).run (sampleLine samplePayload)
        { line := 0, profiles := ⟨{ inLow := 30 }, 0⟩ }).2.io ∧
    ((setFanProfileRpc 2 30).run (sampleLine samplePayload)
      { line := 0, profiles := ⟨{ inLow := 30 }, 0⟩ }).1 =
      some (.ok { modified := false, originalSpeed := 30, targetSpeed := 30, reqTime := 0 }) := by
  decide

/-! ## C45 -/

/-- **C45**, negation, with float conversion as on amd64: the cached comfort temperature is −5 °C
(wire byte 30), 251 is requested, which is out of range, and is reported as already set. -/
theorem C45_comfort_violated : ¬ ∀ (w : World UInt8) (v : UInt32), 107 < v.toNat → v.toNat ≤ 255 →
    w.temps.val.comfort ≠ v.toNat → ∃ e w',
    (setComfortTemp amd64 v).run (sampleLine samplePayload) w = (some (.err (.internal e)), w') := by
  intro h
  obtain ⟨e, w', h⟩ := h { line := 0, temps := ⟨{ comfort := -5 }, 0⟩ } 251 (by decide) (by decide)
    (by decide)
  have h1 : ((setComfortTemp amd64 251).run (sampleLine samplePayload)
      { line := 0, temps := ⟨{ comfort := -5 }, 0⟩ }).1 = some (.err (.internal e)) := by rw [h]
  have h2 : ((setComfortTemp amd64 251).run (sampleLine samplePayload)
      { line := 0, temps := ⟨{ comfort := -5 }, 0⟩ }).1 = some (.ok
        { modified := false, originalTemp := 4294967291, targetTemp := 251, reqTime := 0 }) := by decide
  rw [h2] at h1
  simp at h1

/-- **C45**, for a cached comfort temperature that is not negative: values above 255 are rejected
with InvalidArgument, values 108 to 255 other than the cached one with an Internal error, both
without I/O; the cached value is reported as unmodified without I/O; for any other value the comfort
command with that temperature is sent, and Modified = true is reported, with the cached and the
requested value, if and only if the command succeeded. *Missing from the full property:* a negative
cached value, see `C45_comfort_violated`. -/
theorem C45_comfort_partial {L : Line σ} (hL : L.NoPanic) (cv : FloatConv) (v : UInt32)
    (w : World σ) (hc : 0 ≤ w.temps.val.comfort) (hc' : w.temps.val.comfort ≤ 107) :
    ∃ r w', (setComfortTemp cv v).run L w = (some r, w') ∧
      (255 < v.toNat → (∃ arg, r = .err (.invalidArgument arg)) ∧
        w'.io = w.io ∧ w'.line = w.line ∧ ∀ id, w'.get id = w.get id) ∧
      (107 < v.toNat → v.toNat ≤ 255 → (∃ e, r = .err (.internal e)) ∧
        w'.io = w.io ∧ w'.line = w.line ∧ ∀ id, w'.get id = w.get id) ∧
      ((v.toNat : Int) = w.temps.val.comfort →
        (∃ rt, r = .ok { modified := false, originalTemp := v, targetTemp := v, reqTime := rt }) ∧
        w'.io = w.io ∧ w'.line = w.line ∧ ∀ id, w'.get id = w.get id) ∧
      ((v.toNat : Int) ≠ w.temps.val.comfort → v.toNat ≤ 107 → ∃ b evs q e,
        degrees b = v.toNat ∧ Transaction 0xD3 [b] false evs (q, e) ∧
        (∀ e', e = some e' → r = .err (.internal (.lib e')) ∧ w'.io = w.io ++ evs) ∧
        (e = none → ∃ o rt tt evs2 r2, ((UInt32.toNat o : Nat) : Int) = w.temps.val.comfort ∧
          r = .ok { modified := true, originalTemp := o, targetTemp := v, reqTime := rt } ∧
          Transaction 0xD1 [] true evs2 r2 ∧
          w'.io = w.io ++ evs ++ .refresh .temps tt :: evs2)) := by
  have g : w.tick.get .temps = w.temps := by rw [tick_get]; rfl
  have k8 := cv.u8_ok w.temps.val.comfort hc (by omega)
  have k32 := cv.u32_ok w.temps.val.comfort hc (by omega)
  have e8 : v.toUInt8.toNat = v.toNat % 256 := by simp
  have c255 : (255 : UInt32).toNat = 255 := rfl
  have hgt : v > 255 ↔ 255 < v.toNat := by rw [gt_iff_lt, UInt32.lt_iff_toNat_lt, c255]
  unfold setComfortTemp
  simp only [Prog.run, g]
  by_cases h255 : v > 255
  · have := hgt.1 h255
    rw [if_pos h255]
    refine ⟨_, _, rfl, fun _ => ⟨⟨_, rfl⟩, by simp, by simp, by simp⟩, ?_, ?_, ?_⟩
    · intro _ h; omega
    · intro h; omega
    · intro _ h; omega
  · have hle : v.toNat ≤ 255 := by
      by_cases h : 255 < v.toNat
      · exact absurd (hgt.2 h) h255
      · omega
    rw [if_neg h255]
    by_cases heq : (v.toNat : Int) = w.temps.val.comfort
    · have hu : cv.u8 w.temps.val.comfort = v.toUInt8 := by rw [u8_ext, e8]; omega
      rw [if_neg (by simpa using hu)]
      refine ⟨_, w.tick.tick, rfl, by omega, by omega, fun _ => ⟨⟨timeSub w.tick.tick.clock w.tick.clock, ?_⟩,
        by simp, by simp, by simp⟩, fun h => absurd heq h⟩
      have : cv.u32 w.temps.val.comfort = v := by apply UInt32.toNat_inj.1; omega
      rw [this]
    · have hu : cv.u8 w.temps.val.comfort ≠ v.toUInt8 := by
        intro h
        rw [u8_ext, e8] at h
        omega
      rw [if_pos hu]
      simp only [Prog.run]
      by_cases h107 : 107 < v.toNat
      · have hs : setComfortP v.toUInt8 = .ret (some .tooHigh) := by
          apply setQueryP_err (bin := [])
          simp only [SetRequest.marshalBinary, temperatureMarshal, e8]
          rw [if_pos (by omega)]
        rw [hs]
        refine ⟨_, _, rfl, by omega, fun _ _ => ⟨⟨_, rfl⟩, by simp, by simp, by simp⟩,
          fun h => absurd h heq, fun _ h => by omega⟩
      · have hbin : (SetRequest.comfort (v.toUInt8.toNat : Int)).marshalBinary =
            ([UInt8.ofNat ((v.toNat + 20) * 2)], none) := by
          simp only [SetRequest.marshalBinary, temperatureMarshal]
          rw [if_neg (by omega), if_neg (by omega), e8]
          simp only [Prod.mk.injEq, and_true, List.cons.injEq]
          congr 1
          omega
        obtain ⟨line, evs, q, e, hs, htx⟩ := setQueryP_run hL hbin (by simp) w.tick
        have hs' : (setComfortP v.toUInt8).run L w.tick = (some e, w.tick.after line evs) := hs
        rw [run_bind_some hs']
        have hdeg : degrees (UInt8.ofNat ((v.toNat + 20) * 2)) = v.toNat := by
          unfold degrees; simp; omega
        cases e with
        | some e' =>
          refine ⟨_, _, rfl, by omega, by omega, fun h => absurd h heq, fun _ _ =>
            ⟨_, evs, q, some e', hdeg, htx, ?_, by simp⟩⟩
          intro e'' he
          injection he with he
          subst he
          exact ⟨rfl, by simp⟩
        | none =>
          obtain ⟨w2, evs2, q2, e2, hu2, hio, ht2, -, -⟩ := update_forced hL .temps
            (w.tick.after line evs)
          simp only
          rw [run_bind_some hu2]
          refine ⟨_, _, rfl, by omega, by omega, fun h => absurd h heq, fun _ _ =>
            ⟨_, evs, q, none, hdeg, htx, by simp, fun _ =>
              ⟨_, _, (w.tick.after line evs).tick.clock, evs2, (q2, e2), k32, rfl, ht2, ?_⟩⟩⟩
          · simp only [Prog.run, tick_io, hio]; simp

/-- Non-vacuity of C45. -/
example : ((setComfortTemp amd64 22).run (sampleLine samplePayload)
      { line := 0, temps := ⟨{ comfort := 20 }, 0⟩ }).1 = some (.ok
        { modified := true, originalTemp := 20, targetTemp := 22, reqTime := 0 }) ∧
    ((setComfortTemp amd64 108).run (sampleLine samplePayload)
      { line := 0, temps := ⟨{ comfort := 20 }, 0⟩ }).1 = some (.err (.internal (.lib .tooHigh))) ∧
    ((setComfortTemp amd64 256).run (sampleLine samplePayload)
      { line := 0, temps := ⟨{ comfort := 20 }, 0⟩ }).1 =
        some (.err (.invalidArgument .tempTooLarge)) := by decide

/-! ## C49 -/

/-- **C49** Every field of every message has the value of the cached field. -/
theorem C49_protobuf_lossless :
    (∀ b : BootInfo, b.protobuf.majorVersion.toNat = b.majorVersion.toNat ∧
      b.protobuf.minorVersion.toNat = b.minorVersion.toNat ∧
      b.protobuf.betaVersion.toNat = b.betaVersion.toNat ∧ b.protobuf.deviceName = b.deviceName) ∧
    (∀ b : Bypass, b.protobuf.factor.toNat = b.factor.toNat ∧
      b.protobuf.level.toNat = b.level.toNat ∧ b.protobuf.correction.toNat = b.correction.toNat ∧
      b.protobuf.summerMode = b.summerMode) ∧
    (∀ t : Temps, t.protobuf.comfort = t.comfort ∧ t.protobuf.outsideAir = t.outsideAir ∧
      t.protobuf.supplyAir = t.supplyAir ∧ t.protobuf.insideAir = t.insideAir ∧
      t.protobuf.exhaustAir = t.exhaustAir ∧ t.protobuf.geoHeat = t.geoHeat ∧
      t.protobuf.reheating = t.reheating ∧ t.protobuf.kitchenHood = t.kitchenHood) ∧
    (∀ f : Fans, f.protobuf.inPercent.toNat = f.inPercent.toNat ∧
      f.protobuf.outPercent.toNat = f.outPercent.toNat ∧
      f.protobuf.inSpeed.toNat = f.inSpeed.toNat ∧ f.protobuf.outSpeed.toNat = f.outSpeed.toNat) ∧
    (∀ p : FanProfiles, p.protobuf.outAway.toNat = p.outAway.toNat ∧
      p.protobuf.outLow.toNat = p.outLow.toNat ∧ p.protobuf.outMid.toNat = p.outMid.toNat ∧
      p.protobuf.outHigh.toNat = p.outHigh.toNat ∧ p.protobuf.inAway.toNat = p.inAway.toNat ∧
      p.protobuf.inLow.toNat = p.inLow.toNat ∧ p.protobuf.inMid.toNat = p.inMid.toNat ∧
      p.protobuf.inHigh.toNat = p.inHigh.toNat ∧
      p.protobuf.currentOut.toNat = p.currentOut.toNat ∧
      p.protobuf.currentIn.toNat = p.currentIn.toNat ∧
      p.protobuf.currentMode.toNat = p.currentMode.toNat ∧
      p.protobuf.inFanActive = p.inFanActive) ∧
    (∀ e : Errors, e.protobuf.filter = e.filter) := by
  refine ⟨?_, ?_, ?_, ?_, ?_, ?_⟩ <;> intro x <;>
    simp [BootInfo.protobuf, Bypass.protobuf, Temps.protobuf, Fans.protobuf, FanProfiles.protobuf,
      Errors.protobuf]

/-- The largest values of the unit fit into the messages. -/
example : (Fans.protobuf ⟨100, 255, 65535, 1831⟩) = ⟨100, 255, 65535, 1831⟩ ∧
    (Temps.protobuf { outsideAir := -20, kitchenHood := 107 }) =
      ⟨0, -20, 0, 0, 0, 0, 0, 107⟩ := by decide

/-- Hence the message determines the cached value. -/
theorem C49_protobuf_injective :
    (∀ a b : BootInfo, a.protobuf = b.protobuf → a = b) ∧
    (∀ a b : Bypass, a.protobuf = b.protobuf → a = b) ∧
    (∀ a b : Temps, a.protobuf = b.protobuf → a = b) ∧
    (∀ a b : Fans, a.protobuf = b.protobuf → a = b) ∧
    (∀ a b : FanProfiles, a.protobuf = b.protobuf → a = b) ∧
    (∀ a b : Errors, a.protobuf = b.protobuf → a = b) := by
  have h8 : ∀ a b : UInt8, a.toUInt32 = b.toUInt32 → a = b := by
    intro a b h
    have := congrArg UInt32.toNat h
    rw [u8_ext]; simpa using this
  have h16 : ∀ a b : UInt16, a.toUInt32 = b.toUInt32 → a = b := by
    intro a b h
    have := congrArg UInt32.toNat h
    apply UInt16.toNat_inj.1; simpa using this
  refine ⟨?_, ?_, ?_, ?_, ?_, ?_⟩ <;> rintro ⟨⟩ ⟨⟩ h <;>
    simp only [BootInfo.protobuf, Bypass.protobuf, Temps.protobuf, Fans.protobuf, FanProfiles.protobuf,
      Errors.protobuf, PbBootInfo.mk.injEq, PbBypass.mk.injEq, PbTemps.mk.injEq, PbFans.mk.injEq,
      PbFanProfiles.mk.injEq, PbErrors.mk.injEq] at h
  · simp only [BootInfo.mk.injEq]
    exact ⟨h8 _ _ h.1, h8 _ _ h.2.1, h8 _ _ h.2.2.1, h.2.2.2⟩
  · simp only [Bypass.mk.injEq]
    exact ⟨h8 _ _ h.1, h8 _ _ h.2.1, h8 _ _ h.2.2.1, h.2.2.2⟩
  · simp only [Temps.mk.injEq]
    exact h
  · simp only [Fans.mk.injEq]
    exact ⟨h8 _ _ h.1, h8 _ _ h.2.1, h16 _ _ h.2.2.1, h16 _ _ h.2.2.2⟩
  · simp only [FanProfiles.mk.injEq]
    obtain ⟨a1, a2, a3, a4, a5, a6, a7, a8, a9, a10, a11, a12⟩ := h
    exact ⟨h8 _ _ a1, h8 _ _ a2, h8 _ _ a3, h8 _ _ a4, a5, h8 _ _ a6, h8 _ _ a7, h8 _ _ a8, h8 _ _ a9,
      h8 _ _ a10, h8 _ _ a11, h8 _ _ a12⟩
  · simp only [Errors.mk.injEq]
    exact h

end Comfo.Props
