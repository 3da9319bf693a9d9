import Verif.Model.History
import Verif.Lemmas.Evolve
/-!
# Properties of the caches: C35, C36, C37, C38, C46, C47

All theorems hold for every `Line` whose reads do not panic; the connection model is one of them
(`scriptLine_noPanic`).
-/
namespace Comfo.Props
open Spec

theorem sampleLine_noPanic (pl : UInt8 → List UInt8) : (sampleLine pl).NoPanic := by
  intro e s; simp [sampleLine]

/-! ## C35 -/

/-- C35. A refresh returns; it leaves the other caches alone; and either it did no I/O and changed
nothing, or it made one query, and the cache holds what the query brought, with the time the
refresh began, if the query and the decoding succeeded, and what it held before otherwise. -/
theorem C35_refresh_all_or_nothing {L : Line σ} (hL : L.NoPanic) (id : CacheId) (force : Bool)
    (w : World σ) : ∃ w', (update id force).run L w = (some (), w') ∧
      (∀ id', id' ≠ id → w'.get id' = w.get id') ∧
      ((w'.io = w.io ∧ w'.get id = w.get id) ∨
        ∃ evs q e, w'.io = w.io ++ .refresh id w.tick.clock :: evs ∧
          Transaction (requestCode id) [] true evs (q, e) ∧
          (∀ v, e = none → decode id q.data = some v →
            w'.get id = { val := v, last := w.tick.clock }) ∧
          ((e ≠ none ∨ decode id q.data = none) → w'.get id = w.get id)) := by
  rcases update_run hL id force w with ⟨-, -, h⟩ | ⟨-, line, evs, q, e, ht, h⟩
  · exact ⟨_, h, fun id' _ => by simp, .inl ⟨by simp, by simp⟩⟩
  · refine ⟨_, h, fun id' hid => by rw [store_get_other _ _ _ hid]; simp, .inr
      ⟨evs, q, e, by simp, ht, ?_, ?_⟩⟩
    · rintro v rfl hv
      rw [store_get_same, outcome, hv]
    · intro hh
      have : outcome id q e = none := by
        unfold outcome
        cases e with
        | some _ => rfl
        | none => simpa using hh
      rw [store_get_same, this]; simp

/-- A refresh that succeeds. -/
example : ((update .temps true).run (sampleLine samplePayload) (World.initial 0 7 [2])).2.temps =
    { val := { comfort := 21, outsideAir := 5, supplyAir := 20, insideAir := 21, exhaustAir := 6,
               geoHeat := -20, reheating := -20, kitchenHood := -20 }, last := 9 } := by decide

/-- A refresh that fails: the payload has the wrong length. -/
example : ((update .temps true).run (sampleLine fun _ => [1]) { line := 0, temps := ⟨{ comfort := 5 }, 3⟩ }).2.temps =
    ⟨{ comfort := 5 }, 3⟩ := by decide

/-! ## C36 -/

theorem isStale_iff (last now : Int) : isStale last now = true ↔ now - last > 4500000000 := by
  unfold isStale timeSub fastCacheStale
  simp only
  split <;> simp <;> (repeat' split) <;> omega

/-- C36. A refresh that is not forced, of a cache stamped at most 4.5 s ago, does no I/O and
changes no cache; otherwise the unit is queried: the request of that cache is written. `T` is the
time at which the refresh looks at the clock. -/
theorem C36_fresh_no_traffic {L : Line σ} (hL : L.NoPanic) (id : CacheId) (force : Bool)
    (w : World σ) : ∃ w' T, (update id force).run L w = (some (), w') ∧ w.clock ≤ T ∧
      (force = false ∧ T - (w.get id).last ≤ 4500000000 →
        w'.io = w.io ∧ w'.line = w.line ∧ ∀ id', w'.get id' = w.get id') ∧
      (force = true ∨ T - (w.get id).last > 4500000000 →
        ∃ r evs, w'.io = w.io ++ .refresh id T :: .wrote (frame (requestCode id) []) r :: evs) := by
  rcases update_run hL id force w with ⟨hf, hs, h⟩ | ⟨hf, line, evs, q, e, ht, h⟩
  · refine ⟨_, w.tick.clock, h, tick_mono w, fun _ => ⟨by simp, by simp, by simp⟩, ?_⟩
    intro hh
    rw [hf] at hh
    have := (isStale_iff _ _).2 (by simpa using hh)
    rw [hs] at this; simp at this
  · refine ⟨_, w.tick.clock, h, tick_mono w, ?_, fun _ => ?_⟩
    · rintro ⟨h1, h2⟩
      rcases hf with hf | hf
      · rw [h1] at hf; simp at hf
      · have := (isStale_iff _ _).1 hf
        omega
    · cases ht <;> exact ⟨_, _, store_io _ _ _ _⟩

/-- Both cases occur, either side of 4.5 s. -/
example : ((update .fans false).run (sampleLine samplePayload)
      { line := 0, clock := 4500000009, fans := ⟨{}, 9⟩ }).2.io = [] ∧
    ((update .fans false).run (sampleLine samplePayload)
      { line := 0, clock := 4500000010, fans := ⟨{}, 9⟩ }).2.io.length = 4 := by decide

/-! ## C37 -/

/-- What a cache must hold, given the log: the last good refresh, or zero. -/
def servedFrom (id : CacheId) (log : List IoEv) : Entry (CVal id) :=
  match lastGood id log with
  | some (v, t) => { val := v, last := t }
  | none => zeroEntry id

/-- The caches agree with the log, and the log does not end inside a refresh. -/
def Agrees (w : World σ) : Prop :=
  ∀ id, w.get id = servedFrom id w.io ∧ (w.io.foldl (scanEv id) (none, .idle)).2 = .idle

theorem scan_idle_tx {cmd : UInt8} {data : List UInt8} {expect : Bool} {evs : List IoEv} {r}
    (h : Transaction cmd data expect evs r) (id : CacheId) (x : Option (CVal id × Int)) :
    evs.foldl (scanEv id) (x, .idle) = (x, .idle) := by
  cases h <;> cases expect <;> rfl

theorem scan_other {evs : List IoEv} {i : CacheId} {r}
    (h : Transaction (requestCode i) [] true evs r) {id : CacheId} (hi : i ≠ id) (t : Int)
    (s : Option (CVal id × Int) × Cur) :
    (IoEv.refresh i t :: evs).foldl (scanEv id) s = (s.1, .idle) := by
  have : scanEv id s (.refresh i t) = (s.1, .idle) := by simp [scanEv, hi]
  rw [List.foldl_cons, this, scan_idle_tx h]

theorem scan_same {evs : List IoEv} {id : CacheId} {q : Packet} {e : Option Err}
    (h : Transaction (requestCode id) [] true evs (q, e)) (t : Int)
    (s : Option (CVal id × Int) × Cur) :
    (IoEv.refresh id t :: evs).foldl (scanEv id) s =
      (match outcome id q e with | some v => some (v, t) | none => s.1, .idle) := by
  cases h with
  | writeFailed n e => simp [scanEv, outcome]
  | readFailed n q e => simp [scanEv, outcome]
  | wrongReply n q _ h => simp [scanEv, outcome, h]
  | ackFailed n q m e h => simp [scanEv, outcome, h]
  | ackShort n q m h hm =>
    simp only [List.foldl_cons, List.foldl_nil, scanEv, if_true, h, outcome, hm]
    cases decode id q.data <;> simp
  | complete n q h =>
    simp only [List.foldl_cons, List.foldl_nil, scanEv, if_true, h, outcome]
    cases decode id q.data <;> simp

theorem agrees_of_scan {w w' : World σ} (h : Agrees w) (evs : List IoEv) (hio : w'.io = w.io ++ evs)
    (hs : ∀ id, evs.foldl (scanEv id) (lastGood id w.io, .idle) = (lastGood id w.io, .idle))
    (hg : ∀ id, w'.get id = w.get id) : Agrees w' := by
  intro id
  obtain ⟨h1, h2⟩ := h id
  have e : w'.io.foldl (scanEv id) (none, .idle) = (lastGood id w.io, .idle) := by
    rw [hio, List.foldl_append, ← hs id]
    congr 1
    exact Prod.ext rfl h2
  refine ⟨?_, by rw [e]⟩
  have : lastGood id w'.io = lastGood id w.io := by
    rw [lastGood, e]
  rw [hg, h1, servedFrom, servedFrom, this]

theorem agrees_micro {w w' : World σ} (h : Agrees w) (hm : Micro w w') : Agrees w' := by
  cases hm with
  | time c a hc =>
    exact agrees_of_scan h [] (by simp) (fun id => rfl) (fun id => by cases id <;> rfl)
  | tx cmd data expect evs r line ht =>
    exact agrees_of_scan h evs rfl (fun id => scan_idle_tx ht id _) (fun id => by simp)
  | answered b =>
    exact agrees_of_scan h [.answered b] rfl (fun id => rfl) (fun id => by cases id <;> rfl)
  | refresh i line evs q e ht =>
    intro id
    obtain ⟨h1, h2⟩ := h id
    by_cases hi : i = id
    · subst hi
      have e1 : (w.io ++ .refresh i w.clock :: evs).foldl (scanEv i) (none, .idle) =
          (match outcome i q e with | some v => some (v, w.clock) | none => lastGood i w.io,
            .idle) := by
        rw [List.foldl_append, scan_same ht]; rfl
      refine ⟨?_, by rw [store_io, after_io, e1]⟩
      rw [store_get_same, servedFrom, lastGood, store_io, after_io, e1]
      cases outcome i q e with
      | some v => rfl
      | none => simpa [servedFrom] using h1
    · have e1 : (w.io ++ .refresh i w.clock :: evs).foldl (scanEv id) (none, .idle) =
          (lastGood id w.io, .idle) := by
        rw [List.foldl_append, scan_other ht hi]; rfl
      refine ⟨?_, by rw [store_io, after_io, e1]⟩
      rw [store_get_other _ _ _ (Ne.symm hi), servedFrom, lastGood, store_io, after_io, e1]
      simpa [servedFrom] using h1

theorem agrees_evolves {w w' : World σ} (h : Agrees w) (hm : Evolves w w') : Agrees w' := by
  induction hm with
  | refl => exact h
  | step _ hm ih => exact agrees_micro ih hm

theorem good_drop {L : Line σ} {p : Prog α} (h : Good L p) : Good L p.drop :=
  good_bind h fun _ => good_ret _

theorem good_op {L : Line σ} (hL : L.NoPanic) (cv : FloatConv) (o : Op σ) : Good L (o.prog cv) := by
  cases o with
  | getBoot => exact good_drop (good_protobuf _ _)
  | getBypass => exact good_drop (good_protobuf _ _)
  | getErrors => exact good_drop (good_protobuf _ _)
  | getFans => exact good_drop (good_protobuf _ _)
  | getProfiles => exact good_drop (good_protobuf _ _)
  | getTemps => exact good_drop (good_protobuf _ _)
  | setComfort v => exact good_drop (good_setComfortTemp hL cv v)
  | setSpeed a r => exact good_drop (good_setFanSpeed hL a r)
  | setProfile m t => exact good_drop (good_setFanProfileRpc hL m t)
  | flush t => exact good_flushCaches hL t
  | tick k => exact good_onTick hL k
  | environment f => exact good_ret _
  | pause ns => exact good_sleep (good_ret _)

theorem exec_cases {L : Line σ} (hL : L.NoPanic) (cv : FloatConv) (w : World σ) (o : Op σ) :
    Evolves w (o.exec cv L w) ∨ ∃ f : σ → σ, o.exec cv L w = { w with line := f w.line } := by
  have key : ∀ o : Op σ, Evolves w ((o.prog cv).run L w).2 := by
    intro o
    obtain ⟨a, w', h1, h2⟩ := good_op hL cv o w
    rw [h1]; exact h2
  cases o with
  | environment f => exact .inr ⟨f, rfl⟩
  | _ => exact .inl (key _)

theorem agrees_ops {L : Line σ} (hL : L.NoPanic) (cv : FloatConv) (ops : List (Op σ)) :
    ∀ w, Agrees w → Agrees (runOps cv L ops w) := by
  induction ops with
  | nil => exact fun w h => h
  | cons o ops ih =>
    intro w h
    apply ih
    rcases exec_cases hL cv w o with he | ⟨f, he⟩
    · exact agrees_evolves h he
    · rw [he]
      exact agrees_of_scan h [] (by simp) (fun id => rfl) (fun id => by cases id <;> rfl)

theorem agrees_initial (line : σ) (clock : Int) (adv : List Nat) :
    Agrees (World.initial line clock adv) := by
  intro id; cases id <;> exact ⟨rfl, rfl⟩

/-- C37. After start-up and any history, each of the six Get RPCs answers with what the last
successful refresh of its cache read from the unit (`servedFrom`), or with the zero value if there
was none. A refresh is successful when request, matching reply and acknowledgement went through
and the payload decoded. -/
theorem C37_served_from_unit {L : Line σ} (hL : L.NoPanic) (cv : FloatConv) (ops : List (Op σ))
    (line : σ) (clock : Int) (adv : List Nat) (w : World σ)
    (hw : w = runOps cv L ops (startCaches.run L (World.initial line clock adv)).2) :
    (getBootInfoRpc.run L w).1 = some (.ok (BootInfo.protobuf (servedFrom .boot w.io).val)) ∧
    (getBypassRpc.run L w).1 = some (.ok (Bypass.protobuf (servedFrom .bypass w.io).val)) ∧
    (getErrorsRpc.run L w).1 = some (.ok (Errors.protobuf (servedFrom .errors w.io).val)) ∧
    (getFansRpc.run L w).1 = some (.ok (Fans.protobuf (servedFrom .fans w.io).val)) ∧
    (getFanProfilesRpc.run L w).1 =
      some (.ok (FanProfiles.protobuf (servedFrom .profiles w.io).val)) ∧
    (getTempsRpc.run L w).1 = some (.ok (Temps.protobuf (servedFrom .temps w.io).val)) := by
  have hA : Agrees w := by
    rw [hw]
    apply agrees_ops hL
    obtain ⟨a, w', h1, h2⟩ := good_updateCaches hL true (World.initial line clock adv)
    have : startCaches.run L (World.initial line clock adv) = (some a, w') := h1
    rw [this]
    exact agrees_evolves (agrees_initial _ _ _) h2
  have hB := fun id => (hA id).1
  refine ⟨?_, ?_, ?_, ?_, ?_, ?_⟩
  · rw [← hB .boot]; rfl
  · rw [← hB .bypass]; rfl
  · rw [← hB .errors]; rfl
  · rw [← hB .fans]; rfl
  · rw [← hB .profiles]; rfl
  · rw [← hB .temps]; rfl

/-- A history in which the log shows a good refresh: the served comfort temperature is 21 °C, read
at time 9; a later flush of an unknown type and a tick soon after change nothing. -/
example : (servedFrom .temps (runOps amd64 (sampleLine samplePayload)
      [.flush 7, .tick .fast, .getTemps]
      (startCaches.run (sampleLine samplePayload) (World.initial 0 7 [1, 0, 1])).2).io) =
    { val := ({ comfort := 21, outsideAir := 5, supplyAir := 20, insideAir := 21, exhaustAir := 6,
                geoHeat := -20, reheating := -20, kitchenHood := -20 } : Temps), last := 9 } := by decide

/-! ## C38 -/

/-- Every query for cache `id` succeeds. -/
def Reliable (L : Line σ) (id : CacheId) : Prop :=
  ∀ w, ∃ v w', id.fetch.run L w = (some (v, none), w')

/-- `Reach w T`: the server, started on some line, can get into `w`, and the last fast tick (or
start-up) was handled at time `T`. -/
inductive Reach (cv : FloatConv) (L : Line σ) : World σ → Int → Prop
  | start (line : σ) (clock : Int) (adv : List Nat) : 0 ≤ clock →
    Reach cv L (startCaches.run L (World.initial line clock adv)).2 clock
  | tick {w T} : Reach cv L w T → Reach cv L ((onTick .fast).run L w).2 w.clock
  | op {w T} (o : Op σ) : Reach cv L w T → Reach cv L (o.exec cv L w) T

/-- Time stamps lie in the past and only grow. -/
theorem evolves_last {w w' : World σ} (h : Evolves w w') (id : CacheId)
    (hp : (w.get id).last ≤ w.clock) :
    (w.get id).last ≤ (w'.get id).last ∧ (w'.get id).last ≤ w'.clock ∧ w.clock ≤ w'.clock := by
  induction h with
  | refl => exact ⟨Int.le_refl _, hp, Int.le_refl _⟩
  | @step w1 w2 _ hm ih =>
    obtain ⟨h1, h2, h3⟩ := ih
    cases hm with
    | time c a hc =>
      have e : ({ w1 with clock := c, adv := a } : World σ).get id = w1.get id := by
        cases id <;> rfl
      rw [e]; simp only; omega
    | tx cmd data expect evs r line ht => simp only [after_get, after_clock]; omega
    | answered b =>
      have e : (w1.log (.answered b)).get id = w1.get id := by cases id <;> rfl
      rw [e]
      exact ⟨h1, h2, h3⟩
    | refresh i line evs q e ht =>
      simp only [store_clock, after_clock]
      by_cases hi : i = id
      · subst hi
        rw [store_get_same]
        cases outcome i q e with
        | some v => simp only; omega
        | none => simp only [after_get]; omega
      · rw [store_get_other _ _ _ (Ne.symm hi)]
        simp only [after_get]; omega

theorem run_evolves {L : Line σ} {p : Prog α} (h : Good L p) (w : World σ) :
    Evolves w (p.run L w).2 := by
  obtain ⟨a, w', h1, h2⟩ := h w
  rw [h1]; exact h2

/-- After a refresh on a reliable line the time stamp is recent. -/
theorem update_recent {L : Line σ} (hL : L.NoPanic) {id : CacheId} (hr : Reliable L id)
    (force : Bool) (w : World σ) :
    ∃ w', (update id force).run L w = (some (), w') ∧ w.clock - 4500000000 ≤ (w'.get id).last := by
  have hmono := tick_mono w
  rcases update_run hL id force w with ⟨-, hs, h⟩ | ⟨hf, line, evs, q, e, ht, h⟩
  · refine ⟨_, h, ?_⟩
    have : ¬ (w.tick.clock - (w.get id).last > 4500000000) := by
      intro hh
      rw [(isStale_iff _ _).2 hh] at hs; simp at hs
    rw [tick_get]; omega
  · -- the query cannot have failed
    obtain ⟨v, w1, hv⟩ := hr (w.tick.after w.tick.line [.refresh id w.tick.clock])
    have key : (update id force).run L w = (some (), w1.set id { val := v, last := w.tick.clock }) := by
      have : (update id force).run L w = (id.fetch.bind fun (v, err) =>
          match err with
          | none => .store id { val := v, last := w.tick.clock } <| .unlock (.cache id) <| .ret ()
          | some _ => .unlock (.cache id) <| .ret ()).run L
            (w.tick.after w.tick.line [.refresh id w.tick.clock]) := by
        unfold update
        cases force with
        | true => simp only [Prog.run, if_true, log_eq']; rfl
        | false =>
          have hs : isStale (w.get id).last w.tick.clock = true := by simpa using hf
          simp only [Prog.run, hs, log_eq', Bool.not_true, Bool.false_eq_true, if_false, tick_get]
          rfl
      rw [this, run_bind_some hv]
      rfl
    refine ⟨_, key, ?_⟩
    rw [set_get_same]; simp only; omega

/-- The invariant behind C38. -/
theorem reach_recent {cv : FloatConv} {L : Line σ} (hL : L.NoPanic) (ht : Reliable L .temps)
    (hf : Reliable L .fans) {w : World σ} {T : Int} (h : Reach cv L w T) :
    ∀ id, id = .temps ∨ id = .fans →
      T - 4500000000 ≤ (w.get id).last ∧ (w.get id).last ≤ w.clock ∧ T ≤ w.clock := by
  have gu := good_update hL
  -- a program that refreshes both caches somewhere along the way
  have core : ∀ (w : World σ) (id : CacheId) (pre post : Prog Unit) (force : Bool),
      Reliable L id → Good L pre → Good L post → (w.get id).last ≤ w.clock →
      let w' := ((pre.bind fun _ => (update id force).bind fun _ => post).run L w).2
      w.clock - 4500000000 ≤ (w'.get id).last ∧ (w'.get id).last ≤ w'.clock ∧ w.clock ≤ w'.clock := by
    intro w id pre post force hr hpre hpost hl
    obtain ⟨_, w1, h1, e1⟩ := hpre w
    obtain ⟨w2, h2, e2⟩ := update_recent hL hr force w1
    obtain ⟨_, w2', h2', e2'⟩ := gu id force w1
    rw [h2] at h2'
    obtain rfl : w2 = w2' := by simpa using h2'
    obtain ⟨_, w3, h3, e3⟩ := hpost w2
    rw [run_bind_some h1, run_bind_some h2, h3]
    have a1 := evolves_last e1 id hl
    have a2 := evolves_last e2' id a1.2.1
    have a3 := evolves_last e3 id a2.2.1
    simp only
    omega
  induction h with
  | start line clock adv hc =>
    intro id hid
    have h0 : ((World.initial line clock adv).get id).last ≤ (World.initial line clock adv).clock := by
      cases id <;> exact hc
    rcases hid with rfl | rfl
    · have := core (World.initial line clock adv) .temps
        ((update .boot true).bind fun _ => update .bypass true)
        ((update .fans true).bind fun _ => (update .profiles true).bind fun _ => update .errors true)
        true ht (good_bind (gu _ _) fun _ => gu _ _)
        (good_bind (gu _ _) fun _ => good_bind (gu _ _) fun _ => gu _ _) h0
      simp only [bind_assoc] at this
      exact this
    · have := core (World.initial line clock adv) .fans
        ((update .boot true).bind fun _ => (update .bypass true).bind fun _ => update .temps true)
        ((update .profiles true).bind fun _ => update .errors true)
        true hf (good_bind (gu _ _) fun _ => good_bind (gu _ _) fun _ => gu _ _)
        (good_bind (gu _ _) fun _ => gu _ _) h0
      simp only [bind_assoc] at this
      exact this
  | @tick w T _ ih =>
    intro id hid
    have h0 := (ih id hid).2.1
    rcases hid with rfl | rfl
    · exact core w .temps (.ret ()) (update .fans false) false ht (good_ret _) (gu _ _) h0
    · have := core w .fans (update .temps false) (.ret ()) false hf (gu _ _) (good_ret _) h0
      simp only [bind_ret] at this
      exact this
  | @op w T o _ ih =>
    intro id hid
    obtain ⟨h1, h2, h3⟩ := ih id hid
    rcases exec_cases hL cv w o with he | ⟨f, he⟩
    · have := evolves_last he id h2
      omega
    · rw [he]
      have e : ({ w with line := f w.line } : World σ).get id = w.get id := by cases id <;> rfl
      rw [e]; exact ⟨h1, h2, h3⟩

/-- C38. If queries for temperatures and fans succeed, then at every moment at most 5 s after the
last fast tick was handled, the served temperatures and fan speeds are at most 9.5 s old, whatever
RPCs, flushes, other ticks, pauses and changes of the unit came in between. -/
theorem C38_bounded_age {cv : FloatConv} {L : Line σ} (hL : L.NoPanic) (ht : Reliable L .temps)
    (hf : Reliable L .fans) {w : World σ} {T : Int} (h : Reach cv L w T)
    (hT : w.clock ≤ T + 5000000000) :
    w.clock - (w.get .temps).last ≤ 9500000000 ∧ w.clock - (w.get .fans).last ≤ 9500000000 := by
  have h1 := reach_recent hL ht hf h .temps (.inl rfl)
  have h2 := reach_recent hL ht hf h .fans (.inr rfl)
  omega

/-- The sample unit is reliable. -/
theorem sampleLine_reliable : Reliable (sampleLine samplePayload) .temps ∧
    Reliable (sampleLine samplePayload) .fans := by
  constructor <;> intro w <;>
    exact ⟨_, _, rfl⟩

/-- The bound 9.5 s is attained: a tick 4.5 s after a refresh skips it, and 5 s later the data
is 9.5 s old. -/
example : ∃ w T, Reach amd64 (sampleLine samplePayload) w T ∧ w.clock = T + 5000000000 ∧
    w.clock - (w.get .fans).last = 9500000000 :=
  ⟨_, _, .op (.pause 5000000000) (.tick (.op (.pause 4500000000) (.start 0 7 [] (by decide)))),
    by decide, by decide⟩

/-! ## C46 -/

/-- The caches a flush request names: `rpc/comfo/comfo.proto`, enum `FlushType`. -/
def flushTargets (t : Int) : Option (List CacheId) :=
  if t = 0 then some [.boot]
  else if t = 1 then some [.fans]
  else if t = 2 then some [.temps]
  else if t = 3 then some [.profiles]
  else if t = 4 then some [.bypass]
  else if t = 10 then some [.boot, .bypass, .temps, .fans, .profiles, .errors]
  else none

/-- The log of refreshing the caches `ids` in that order. -/
inductive Refreshes : List CacheId → List IoEv → Prop
  | nil : Refreshes [] []
  | cons {id ids evs rest t r} : Transaction (requestCode id) [] true evs r → Refreshes ids rest →
    Refreshes (id :: ids) (.refresh id t :: evs ++ rest)

theorem update_forced {L : Line σ} (hL : L.NoPanic) (id : CacheId) (w : World σ) :
    ∃ w' evs q e, (update id true).run L w = (some (), w') ∧
      w'.io = w.io ++ .refresh id w.tick.clock :: evs ∧
      Transaction (requestCode id) [] true evs (q, e) ∧
      (∀ id', id' ≠ id → w'.get id' = w.get id') ∧
      w'.get id = (match outcome id q e with
        | some v => { val := v, last := w.tick.clock }
        | none => w.get id) := by
  obtain ⟨line, evs, q, e, ht, h⟩ := update_refresh hL (w := w) (id := id) (force := true) (.inl rfl)
  refine ⟨_, evs, q, e, h, by simp, ht, fun id' hid => ?_, ?_⟩
  · rw [store_get_other _ _ _ hid]; simp
  · rw [store_get_same, after_get, tick_get]; rfl

/-- A list of forced updates in a row. -/
def updates : List CacheId → Prog Unit
  | [] => .ret ()
  | id :: ids => (update id true).bind fun _ => updates ids

theorem updates_run {L : Line σ} (hL : L.NoPanic) (ids : List CacheId) : ∀ w : World σ,
    ∃ w' evs, (updates ids).run L w = (some (), w') ∧ w'.io = w.io ++ evs ∧ Refreshes ids evs ∧
      ∀ id', id' ∉ ids → w'.get id' = w.get id' := by
  induction ids with
  | nil => exact fun w => ⟨w, [], rfl, by simp, .nil, fun _ _ => rfl⟩
  | cons id ids ih =>
    intro w
    obtain ⟨w1, evs, q, e, h1, h2, h3, h4, -⟩ := update_forced hL id w
    obtain ⟨w2, rest, g1, g2, g3, g4⟩ := ih w1
    refine ⟨w2, _, ?_, ?_, .cons (t := w.tick.clock) h3 g3, ?_⟩
    · rw [updates, run_bind_some h1, g1]
    · rw [g2, h2]; simp
    · intro id' hid
      simp only [List.mem_cons, not_or] at hid
      rw [g4 id' hid.2, h4 id' hid.1]

theorem flushCaches_eq (t : Int) : flushCaches t = match flushTargets t with
    | some ids => (updates ids).bind fun _ => .sendFlushed true <| .ret ()
    | none => .sendFlushed false <| .ret () := by
  unfold flushCaches flushTargets
  by_cases h0 : t = 0
  · simp [h0, updates, bind_ret]
  by_cases h1 : t = 1
  · simp [h1, updates, bind_ret]
  by_cases h2 : t = 2
  · simp [h2, updates, bind_ret]
  by_cases h3 : t = 3
  · simp [h3, updates, bind_ret]
  by_cases h4 : t = 4
  · simp [h4, updates, bind_ret]
  by_cases h10 : t = 10
  · simp [h10, updates, updateCaches, bind_ret]
  simp [h0, h1, h2, h3, h4, h10]

/-- C46. A flush request makes the worker refresh exactly the caches it names, one query each, and
leaves the other caches unchanged; then it answers, with true exactly when the type is known. -/
theorem C46_flush_only_requested {L : Line σ} (hL : L.NoPanic) (t : Int) (w : World σ) :
    ∃ w' evs, (flushCaches t).run L w = (some (), w') ∧
      w'.io = w.io ++ evs ++ [.answered (flushTargets t).isSome] ∧
      Refreshes ((flushTargets t).getD []) evs ∧
      ∀ id, id ∉ (flushTargets t).getD [] → w'.get id = w.get id := by
  rw [flushCaches_eq]
  match flushTargets t with
  | none =>
    exact ⟨_, [], rfl, by simp [World.log], .nil, fun id _ => by cases id <;> rfl⟩
  | some ids =>
    obtain ⟨w1, evs, h1, h2, h3, h4⟩ := updates_run hL ids w
    refine ⟨w1.log (.answered true), evs, ?_, ?_, h3, ?_⟩
    · simp only; rw [run_bind_some h1]; rfl
    · simp [World.log, h2]
    · intro id hid
      rw [← h4 id hid]; cases id <;> rfl

example : (((flushCaches 1).run (sampleLine samplePayload) (World.initial 0 7 [])).2.io).length = 5 ∧
    ((flushCaches 5).run (sampleLine samplePayload) (World.initial 0 7 [])).2.io =
      [.answered false] := by decide

/-! ## C47 -/

/-- C47 does not hold: the unit does not answer, the temperatures stay at the zero value, and the
flush is answered with true. -/
theorem C47_flush_fresh_violated : ∃ w : World Conn, ∃ w',
    (flushCaches 2).run scriptLine w = (some (), w') ∧ IoEv.answered true ∈ w'.io ∧
      w'.get .temps = zeroEntry .temps :=
  ⟨World.initial {} 7 [], _, rfl, by decide, by decide⟩

/-- C47, the part that holds. After a flush of one cache that is answered with true, the cache holds
the value of the query just made, stamped with the time of the flush, provided that query
succeeded; missing: the answer does not tell whether it did. -/
theorem C47_flush_fresh_partial {L : Line σ} (hL : L.NoPanic) (t : Int) (id : CacheId)
    (ht : flushTargets t = some [id]) (w : World σ) :
    ∃ w' evs q e, (flushCaches t).run L w = (some (), w') ∧
      w'.io = w.io ++ .refresh id w.tick.clock :: evs ++ [.answered true] ∧
      Transaction (requestCode id) [] true evs (q, e) ∧
      (e = none → ∀ v, decode id q.data = some v →
        w'.get id = { val := v, last := w.tick.clock }) ∧
      (e ≠ none ∨ decode id q.data = none → w'.get id = w.get id) := by
  rw [flushCaches_eq, ht]
  obtain ⟨w1, evs, q, e, h1, h2, h3, h4, h5⟩ := update_forced hL id w
  refine ⟨w1.log (.answered true), evs, q, e, ?_, ?_, h3, ?_, ?_⟩
  · simp only [updates, bind_ret]; rw [run_bind_some h1]; rfl
  · simp [World.log, h2]
  · rintro rfl v hv
    have : (w1.log (.answered true)).get id = w1.get id := by cases id <;> rfl
    rw [this, h5, outcome, hv]
  · intro hh
    have e1 : (w1.log (.answered true)).get id = w1.get id := by cases id <;> rfl
    have : outcome id q e = none := by
      unfold outcome
      cases e with
      | some _ => rfl
      | none => simpa using hh
    rw [e1, h5, this]

example : ((flushCaches 2).run (sampleLine samplePayload) (World.initial 0 7 [])).2.temps.last = 7 ∧
    ((flushCaches 2).run (sampleLine samplePayload) (World.initial 0 7 [])).2.temps.val.comfort
      = 21 := by decide

end Comfo.Props
