import Verif.Props.EndToEnd
import Verif.Props.ShownPy
import Verif.Props.Soon
/-!
# A setting that was changed with the Python client is what every Python client sees, after a known time: C112
-/
namespace Comfo.Props
open Spec Pace

variable {σ : Type} {S : Setup σ} {w : World σ} {f : Nat → Sys σ}

/-- The percentages of the two fans in one mode, as an object of the Python client shows them. -/
def dutyOf (o : PyFanProfiles) (mode : Int) : Option (Nat × Nat) :=
  if mode = 1 then some (o.OutAway, o.InAway)
  else if mode = 2 then some (o.OutLow, o.InLow)
  else if mode = 3 then some (o.OutMid, o.InMid)
  else if mode = 4 then some (o.OutHigh, o.InHigh)
  else none

/-- **C112** (4) `set_comfort_temperature(t)` has returned `True` by step `p`, and the unit works since then. Whatever
`get_temps()` of any Python client returns that begins after the bound of C111, the comfort temperature in it is `t`, unless
somebody has written another command for it since. -/
theorem C112_python_comfort {ω ω' : Type} (U : ReportUnit 0xD3 .temps ShowsComfort S.line S.env) {δ r A j : Nat}
    (T : Timely S w f δ r) (hA : JobsWithin f δ r A) (hw : ∀ id, (w.get id).last ≤ w.clock) (hk : Ticking f .fast δ j)
    {p n n' : Nat} (hn : (f p).sh.world.clock + (tickTime δ r A j .fast + 4500000000 : Nat) < (f n).sh.world.clock)
    (hnn : n ≤ n') {ext : List (Tid × Act)} (hext : (f n').sh.trace = (f p).sh.trace ++ ext)
    (hs : Shows .temps (fun _ => True) ext)
    {net : Call → ω → Option Resp × ω} {u u' : ω} (hb : Brings net u (f p)) {q : Py PyVal} {t : Option Int}
    (hq : IsOp q (.setComfortTemperature t)) (hr : q.run net u = (.ok (.bool true), u'))
    {net' : Call → ω' → Option Resp × ω'} {z z' : ω'} (hb' : BringsLater net' z (f n') (f n).clients.length)
    {q' : Py PyVal} (hq' : IsOp q' .getTemps) {x : PyVal} (hr' : q'.run net' z = (.ok x, z')) :
    ∃ i d pre rest, Confirmed (f n').sh.trace (.client i) (frame 0xD3 d) pre rest ∧
      (NoCommand 0xD3 rest → ∃ o : PyTemps, x = .temps o ∧ t = some o.Comfort) := by
  obtain ⟨i, c, rfl, -, -, h1, -⟩ := C91_comfort U.toSettingUnit (run_reach T.run p) hb hq hr
  obtain ⟨b, hb1, -, pre, rest, hc, -⟩ := h1 rfl
  obtain ⟨i', y, hi, ha, hx⟩ := op_later (id := .temps) hb' hq' rfl hr'
  obtain ⟨h2, h3⟩ := soon_back (by decide) U T hA hw hk (by simp [tier]) hn hnn hext hs hc hi ha
  refine ⟨i, _, pre, _, h2, fun hno => ?_⟩
  obtain ⟨v, rfl, b', h5, h6⟩ := h3 hno
  cases h5
  cases hx
  refine ⟨_, rfl, congrArg some ?_⟩
  simp only [Temps.protobuf]
  omega

/-- **C112** (5) The same for `set_fan_speed(m)` and the mode in what `get_fan_profiles()` returns. -/
theorem C112_python_speed {ω ω' : Type} (U : ReportUnit 0x99 .profiles ShowsSpeed S.line S.env) {δ r A j : Nat}
    (T : Timely S w f δ r) (hA : JobsWithin f δ r A) (hw : ∀ id, (w.get id).last ≤ w.clock) (hk : Ticking f .slow δ j)
    {p n n' : Nat} (hn : (f p).sh.world.clock + (tickTime δ r A j .slow + 4500000000 : Nat) < (f n).sh.world.clock)
    (hnn : n ≤ n') {ext : List (Tid × Act)} (hext : (f n').sh.trace = (f p).sh.trace ++ ext)
    (hs : Shows .profiles (fun _ => True) ext)
    {net : Call → ω → Option Resp × ω} {u u' : ω} (hb : Brings net u (f p)) {q : Py PyVal} {m : Int}
    (hq : IsOp q (.setFanSpeed m)) (hr : q.run net u = (.ok (.bool true), u'))
    {net' : Call → ω' → Option Resp × ω'} {z z' : ω'} (hb' : BringsLater net' z (f n') (f n).clients.length)
    {q' : Py PyVal} (hq' : IsOp q' .getFanProfiles) {x : PyVal} (hr' : q'.run net' z = (.ok x, z')) :
    ∃ i d pre rest, Confirmed (f n').sh.trace (.client i) (frame 0x99 d) pre rest ∧
      (NoCommand 0x99 rest → ∃ o : PyFanProfiles, x = .profiles o ∧ o.CurrentMode = m) := by
  obtain ⟨i, b, hb1, -, -, h1, -⟩ := C91_speed U.toSettingUnit (run_reach T.run p) hb hq hr
  obtain ⟨pre, rest, hc, -⟩ := h1 rfl
  obtain ⟨i', y, hi, ha, hx⟩ := op_later (id := .profiles) hb' hq' rfl hr'
  obtain ⟨h2, h3⟩ := soon_back (by decide) U T hA hw hk (by simp [tier]) hn hnn hext hs hc hi ha
  refine ⟨i, _, pre, _, h2, fun hno => ?_⟩
  obtain ⟨v, rfl, h5⟩ := h3 hno
  cases h5
  cases hx
  exact ⟨_, rfl, by simpa [FanProfiles.protobuf] using hb1⟩

/-- **C112** (6) The same for `increase_fan_speed()` and `decrease_fan_speed()`: the mode is one higher or lower than the one
the request saw in the cache. -/
theorem C112_python_step {ω ω' : Type} (U : ReportUnit 0x99 .profiles ShowsSpeed S.line S.env) {δ r A j : Nat}
    (T : Timely S w f δ r) (hA : JobsWithin f δ r A) (hw : ∀ id, (w.get id).last ≤ w.clock) (hk : Ticking f .slow δ j)
    {p n n' : Nat} (hn : (f p).sh.world.clock + (tickTime δ r A j .slow + 4500000000 : Nat) < (f n).sh.world.clock)
    (hnn : n ≤ n') {ext : List (Tid × Act)} (hext : (f n').sh.trace = (f p).sh.trace ++ ext)
    (hs : Shows .profiles (fun _ => True) ext)
    {net : Call → ω → Option Resp × ω} {u u' : ω} (hb : Brings net u (f p)) {q : Py PyVal} {up : Bool}
    (hq : IsOp q (if up then .increaseFanSpeed else .decreaseFanSpeed)) (hr : q.run net u = (.ok (.bool true), u'))
    {net' : Call → ω' → Option Resp × ω'} {z z' : ω'} (hb' : BringsLater net' z (f n') (f n).clients.length)
    {q' : Py PyVal} (hq' : IsOp q' .getFanProfiles) {x : PyVal} (hr' : q'.run net' z = (.ok x, z')) :
    ∃ i c d pre rest, Saw (f p) i .profiles c ∧ Confirmed (f n').sh.trace (.client i) (frame 0x99 d) pre rest ∧
      (NoCommand 0x99 rest → ∃ o : PyFanProfiles, x = .profiles o ∧
        (o.CurrentMode : Int) = (c.val : FanProfiles).currentMode.toNat + (if up then 1 else -1)) := by
  obtain ⟨i, c, hc0, h1, -⟩ := C91_step U.toSettingUnit (run_reach T.run p) hb hq hr
  obtain ⟨b, -, -, hb1, pre, rest, hc, -⟩ := h1 rfl
  obtain ⟨i', y, hi, ha, hx⟩ := op_later (id := .profiles) hb' hq' rfl hr'
  obtain ⟨h2, h3⟩ := soon_back (by decide) U T hA hw hk (by simp [tier]) hn hnn hext hs hc hi ha
  refine ⟨i, c, _, pre, _, hc0, h2, fun hno => ?_⟩
  obtain ⟨v, rfl, h5⟩ := h3 hno
  cases h5
  cases hx
  refine ⟨_, rfl, ?_⟩
  simp only [FanProfiles.protobuf]
  cases up <;> simp at hb1 ⊢ <;> omega

/-- **C112** (7) The same for `configure_fan_profile(m, d)`: `d` for both fans in that mode. -/
theorem C112_python_profile {ω ω' : Type} (U : ReportUnit 0xCF .profiles ShowsPct S.line S.env) {δ r A j : Nat}
    (T : Timely S w f δ r) (hA : JobsWithin f δ r A) (hw : ∀ id, (w.get id).last ≤ w.clock) (hk : Ticking f .slow δ j)
    {p n n' : Nat} (hn : (f p).sh.world.clock + (tickTime δ r A j .slow + 4500000000 : Nat) < (f n).sh.world.clock)
    (hnn : n ≤ n') {ext : List (Tid × Act)} (hext : (f n').sh.trace = (f p).sh.trace ++ ext)
    (hs : Shows .profiles (fun _ => True) ext)
    {net : Call → ω → Option Resp × ω} {u u' : ω} (hb : Brings net u (f p)) {q : Py PyVal} {m d : Int}
    (hq : IsOp q (.configureFanProfile m d)) (hr : q.run net u = (.ok (.bool true), u'))
    {net' : Call → ω' → Option Resp × ω'} {z z' : ω'} (hb' : BringsLater net' z (f n') (f n).clients.length)
    {q' : Py PyVal} (hq' : IsOp q' .getFanProfiles) {x : PyVal} (hr' : q'.run net' z = (.ok x, z')) :
    ∃ i bs pre rest, Confirmed (f n').sh.trace (.client i) (frame 0xCF bs) pre rest ∧
      (NoCommand 0xCF rest → ∃ o : PyFanProfiles, x = .profiles o ∧ dutyOf o m = some (d.toNat, d.toNat)) := by
  obtain ⟨i, pc, hpc, -, -, hm1, hm4, h1, -⟩ := C91_profile U.toSettingUnit (run_reach T.run p) hb hq hr
  obtain ⟨bs, -, he, pre, rest, hc, -⟩ := h1 rfl
  obtain ⟨i', y, hi, ha, hx⟩ := op_later (id := .profiles) hb' hq' rfl hr'
  obtain ⟨h2, h3⟩ := soon_back (by decide) U T hA hw hk (by simp [tier]) hn hnn hext hs hc hi ha
  refine ⟨i, _, pre, _, h2, fun hno => ?_⟩
  obtain ⟨v, rfl, h5⟩ := h3 hno
  cases hx
  refine ⟨_, rfl, ?_⟩
  have hd : d.toNat = pc.toNat := by omega
  rw [hd]
  cases (show percentages v = bs from h5)
  have hm : m = 1 ∨ m = 2 ∨ m = 3 ∨ m = 4 := by omega
  rcases hm with rfl | rfl | rfl | rfl <;> simp [entries, percentages] at he <;>
    simp [dutyOf, FanProfiles.protobuf, he]

/-! ## Examples -/

open Play

/-- A network that brings answers to the call `g` only. -/
def onlyTo (g : Call) (s : Sys σ) (c : Call) (v : Unit) : Option Resp × Unit :=
  if c = g then answers s c v else (none, v)

/-- Requests before the `n`-th are not `g`, and nobody got boot info. -/
def laterB (g : Call) (s : Sys σ) (n : Nat) : Bool :=
  ((s.clients.take n).all fun k => k.call ≠ g) &&
    s.clients.all fun k => match k.prog with | .ret (.boot _) => false | _ => true

theorem onlyTo_later {g : Call} {s : Sys σ} {n : Nat} (h : laterB g s n = true) : BringsLater (onlyTo g s) () s n := by
  simp only [laterB, Bool.and_eq_true, List.all_eq_true] at h
  intro c r hr
  simp only [onlyTo] at hr
  split at hr
  · rename_i hc
    subst hc
    obtain ⟨i, hi⟩ := answers_brings s c r hr
    refine ⟨?_, i, ?_, hi⟩
    · have := h.2 _ (List.mem_of_getElem? hi)
      cases r <;> first | rfl | cases this
    · rcases Nat.lt_or_ge i n with hlt | hge
      · have := h.1 _ (List.mem_of_getElem? ((List.getElem?_take_of_lt hlt).trans hi))
        simp at this
      · exact hge
  · cases hr

set_option maxRecDepth 16000 in
/-- C112's first example from Python: `set_comfort_temperature(25)` returns `True` though the unit could not be read again,
and half a minute later the asynchronous `get_temps()` of another client returns 25 °C. -/
example : ((syncOp (.setComfortTemperature (some 25))).run (answers (shyPlay 19)) ()).1 = .ok (.bool true) ∧
    (match ((asyncOp (pyInit none (some 1)) .getTemps).run (onlyTo .getTemps (shyPlay 167)) ()).1 with
      | .ok (.temps o) => o.Comfort == 25
      | _ => false) = true ∧
    ∃ x i d pre rest, ((asyncOp (pyInit none (some 1)) .getTemps).run (onlyTo .getTemps (shyPlay 167)) ()).1 = .ok x ∧
      Confirmed (shyPlay 167).sh.trace (.client i) (frame 0xD3 d) pre rest ∧
      (NoCommand 0xD3 rest → ∃ o : PyTemps, x = .temps o ∧ some 25 = some o.Comfort) := by
  obtain ⟨x, hx⟩ : ∃ x, ((asyncOp (pyInit none (some 1)) .getTemps).run (onlyTo .getTemps (shyPlay 167)) ()).1 = .ok x :=
    ⟨_, rfl⟩
  have h0 : ((syncOp (.setComfortTemperature (some 25))).run (answers (shyPlay 19)) ()).1 = .ok (.bool true) := rfl
  refine ⟨h0, by decide +kernel, x, ?_⟩
  obtain ⟨i, d, pre, rest, h1, h2⟩ := C112_python_comfort (f := shyPlay) (shyReport ventComfortReport) shy_cycles.timely
    shy_cycles.jobs (by intro id; cases id <;> decide +kernel) shy_cycles.ticking (p := 19) (n := 163) (n' := 167)
    (by decide +kernel) (by omega) (shy_cycles.ext (by omega)) (worksB_sound (by decide +kernel))
    (answers_brings (shyPlay 19)) (.inl rfl) (Prod.ext h0 rfl)
    (onlyTo_later (by decide +kernel)) (.inr ⟨_, rfl⟩) (Prod.ext hx rfl)
  exact ⟨i, d, pre, rest, hx, h1, h2⟩

set_option maxRecDepth 16000 in
/-- The same for `set_fan_speed(2)` and the synchronous `get_fan_profiles()`, after ten minutes. -/
example : ((syncOp (.setFanSpeed 2)).run (answers (shySpeedPlay 34)) ()).1 = .ok (.bool true) ∧
    (match ((syncOp .getFanProfiles).run (onlyTo .getProfiles (shySpeedPlay 86)) ()).1 with
      | .ok (.profiles o) => o.CurrentMode == 2
      | _ => false) = true ∧
    ∃ x i d pre rest, ((syncOp .getFanProfiles).run (onlyTo .getProfiles (shySpeedPlay 86)) ()).1 = .ok x ∧
      Confirmed (shySpeedPlay 86).sh.trace (.client i) (frame 0x99 d) pre rest ∧
      (NoCommand 0x99 rest → ∃ o : PyFanProfiles, x = .profiles o ∧ (o.CurrentMode : Int) = 2) := by
  obtain ⟨x, hx⟩ : ∃ x, ((syncOp .getFanProfiles).run (onlyTo .getProfiles (shySpeedPlay 86)) ()).1 = .ok x :=
    ⟨_, rfl⟩
  have h0 : ((syncOp (.setFanSpeed 2)).run (answers (shySpeedPlay 34)) ()).1 = .ok (.bool true) := rfl
  refine ⟨h0, by decide +kernel, x, ?_⟩
  obtain ⟨i, d, pre, rest, h1, h2⟩ := C112_python_speed (f := shySpeedPlay) (shyReport ventSpeedReport) shySpeed_cycles.timely
    shySpeed_cycles.jobs (by intro id; cases id <;> decide +kernel) shySpeed_cycles.ticking (p := 34) (n := 82) (n' := 86)
    (by decide +kernel) (by omega) (shySpeed_cycles.ext (by omega)) (worksB_sound (by decide +kernel))
    (answers_brings (shySpeedPlay 34)) (.inl rfl) (Prod.ext h0 rfl)
    (onlyTo_later (by decide +kernel)) (.inl rfl) (Prod.ext hx rfl)
  exact ⟨i, d, pre, rest, hx, h1, h2⟩

/-- The same with a step down, from 3. -/
def shyStepBeats : List Beat := soonBeats (.setSpeed 0 false) .getProfiles 33 2 .slow

theorem shyStep_cycles : Cycles shySpeed shyVentStart shyStepBeats 34 2 .slow where
  line := shy_noPanic vent_noPanic _ _
  calls _ h := h
  fine := {
    env := fun _ => rfl
    calls := fun c hc => servedB_sound (by decide +kernel) hc
    runs := by decide +kernel
    prompt := by decide +kernel
    queued := by decide +kernel }
  len := by decide +kernel
  fires q h := by
    match q, h with
    | 0, _ | 1, _ => rfl
  clock := by decide +kernel
  only := by decide +kernel
  quiet := by decide +kernel
  clients := by decide +kernel
  noFlush := by decide +kernel

def shyStepPlay : Nat → Sys (Vent × Nat) := play shySpeed shyStepBeats (Sys.initial shyVentStart)

set_option maxRecDepth 16000 in
/-- The same for `decrease_fan_speed()`. -/
example : ((syncOp .decreaseFanSpeed).run (answers (shyStepPlay 34)) ()).1 = .ok (.bool true) ∧
    (match ((syncOp .getFanProfiles).run (onlyTo .getProfiles (shyStepPlay 86)) ()).1 with
      | .ok (.profiles o) => o.CurrentMode == 2
      | _ => false) = true ∧
    ∃ x i c d pre rest, ((syncOp .getFanProfiles).run (onlyTo .getProfiles (shyStepPlay 86)) ()).1 = .ok x ∧
      Saw (shyStepPlay 34) i .profiles c ∧
      Confirmed (shyStepPlay 86).sh.trace (.client i) (frame 0x99 d) pre rest ∧
      (NoCommand 0x99 rest → ∃ o : PyFanProfiles, x = .profiles o ∧
        (o.CurrentMode : Int) = (c.val : FanProfiles).currentMode.toNat + -1) := by
  obtain ⟨x, hx⟩ : ∃ x, ((syncOp .getFanProfiles).run (onlyTo .getProfiles (shyStepPlay 86)) ()).1 = .ok x :=
    ⟨_, rfl⟩
  have h0 : ((syncOp .decreaseFanSpeed).run (answers (shyStepPlay 34)) ()).1 = .ok (.bool true) := rfl
  refine ⟨h0, by decide +kernel, x, ?_⟩
  obtain ⟨i, c, d, pre, rest, h1, h2, h3⟩ := C112_python_step (f := shyStepPlay) (shyReport ventSpeedReport)
    shyStep_cycles.timely shyStep_cycles.jobs (by intro id; cases id <;> decide +kernel) shyStep_cycles.ticking (p := 34)
    (n := 82) (n' := 86) (by decide +kernel) (by omega) (shyStep_cycles.ext (by omega)) (worksB_sound (by decide +kernel))
    (answers_brings (shyStepPlay 34)) (up := false) (.inl rfl) (Prod.ext h0 rfl)
    (onlyTo_later (by decide +kernel)) (.inl rfl) (Prod.ext hx rfl)
  exact ⟨i, c, d, pre, rest, hx, h1, h2, h3⟩

set_option maxRecDepth 16000 in
/-- The same for `configure_fan_profile(3, 40)`. -/
example : ((syncOp (.configureFanProfile 3 40)).run (answers (shyDevPlay 26)) ()).1 = .ok (.bool true) ∧
    (match ((syncOp .getFanProfiles).run (onlyTo .getProfiles (shyDevPlay 78)) ()).1 with
      | .ok (.profiles o) => dutyOf o 3 == some (40, 40)
      | _ => false) = true ∧
    ∃ x i d pre rest, ((syncOp .getFanProfiles).run (onlyTo .getProfiles (shyDevPlay 78)) ()).1 = .ok x ∧
      Confirmed (shyDevPlay 78).sh.trace (.client i) (frame 0xCF d) pre rest ∧
      (NoCommand 0xCF rest → ∃ o : PyFanProfiles, x = .profiles o ∧ dutyOf o 3 = some (40, 40)) := by
  obtain ⟨x, hx⟩ : ∃ x, ((syncOp .getFanProfiles).run (onlyTo .getProfiles (shyDevPlay 78)) ()).1 = .ok x :=
    ⟨_, rfl⟩
  have h0 : ((syncOp (.configureFanProfile 3 40)).run (answers (shyDevPlay 26)) ()).1 = .ok (.bool true) := rfl
  refine ⟨h0, by decide +kernel, x, ?_⟩
  obtain ⟨i, d, pre, rest, h1, h2⟩ := C112_python_profile (f := shyDevPlay) (shyReport (profileReport deviceUnit)) shyDev_cycles.timely
    shyDev_cycles.jobs (by intro id; cases id <;> decide +kernel) shyDev_cycles.ticking (p := 26) (n := 74) (n' := 78)
    (by decide +kernel) (by omega) (shyDev_cycles.ext (by omega)) (worksB_sound (by decide +kernel))
    (answers_brings (shyDevPlay 26)) (.inl rfl) (Prod.ext h0 rfl)
    (onlyTo_later (by decide +kernel)) (.inl rfl) (Prod.ext hx rfl)
  exact ⟨i, d, pre, rest, hx, h1, h2⟩

end Comfo.Props
