import Verif.Spec.EndToEnd
import Verif.Props.Async
import Verif.Props.Echo
/-!
# C91: what the result of a call in Python says about the unit

For both variants of each method that changes something, every unit that works as
`Spec.SettingUnit` says, any number of other requests, and every interleaving.
-/
namespace Comfo.Props
open Spec

/-- `p` is one of the two variants of a method. -/
def IsOp (p : Py PyVal) (op : PyOp) : Prop := p = syncOp op ∨ ∃ self, p = asyncOp self op

theorem op_answered {ω : Type} {s : Sys σ} {net : Call → ω → Option Resp × ω} {v v' : ω} (hb : Brings net v s)
    {p : Py PyVal} {op : PyOp} (hp : IsOp p op) {x : PyVal} (hr : p.run net v = (.ok x, v')) :
    ∃ c i r, op.asks = .ok c ∧ Answered s i c r ∧ op.returns (some r) = .ok x := by
  have hs : (syncOp op).run net v = (.ok x, v') := by
    rcases hp with rfl | ⟨self, rfl⟩
    · exact hr
    · rw [async_eq] at hr
      split at hr
      · exact hr
      · cases hr
  rw [C87_sync op] at hs
  split at hs
  · cases hs
  · rename_i c hc
    obtain ⟨h1, -⟩ := Prod.mk.inj hs
    cases hn : (net c v).1 with
    | none =>
      rw [hn] at h1
      cases op <;> cases h1
    | some r =>
      rw [hn] at h1
      obtain ⟨i, hi⟩ := hb c r hn
      exact ⟨c, i, r, hc, hi, h1⟩

theorem saw {s : Sys σ} {i : Nat} {id : CacheId} {c : Entry (CVal id)} {pre post : List (Tid × Act)}
    (h : s.sh.trace = pre ++ (.client i, .load id c) :: post) : Saw s i id c := by
  unfold Saw; rw [h]; simp

/-- **C91** `set_fan_speed(n)`: `True` means that the unit was told speed `n`, has confirmed it and runs
at it until the next speed command; `False`, that `n` is the speed in the cache and nothing was sent. -/
theorem C91_speed {ω : Type} {S : Setup σ} (U : SettingUnit 0x99 S.line S.env) {w : World σ} {s : Sys σ}
    (h : Reachable S (Sys.initial w) s) {net : Call → ω → Option Resp × ω} {v v' : ω}
    (hb : Brings net v s) {p : Py PyVal} {n : Int} (hp : IsOp p (.setFanSpeed n)) {b : Bool}
    (hr : p.run net v = (.ok (.bool b), v')) :
    ∃ (i : Nat) (m : UInt8), (m.toNat : Int) = n ∧ 1 ≤ n ∧ n ≤ 4 ∧
      (b = true → Effected U s i [m]) ∧
      (b = false → Silent s i ∧ ∃ c : Entry FanProfiles, Saw s i .profiles c ∧ c.val.currentMode = m) := by
  obtain ⟨call, i, r, hc, ha, hx⟩ := op_answered hb hp hr
  simp only [PyOp.asks] at hc
  split at hc
  case isFalse => cases hc
  case isTrue hn =>
    cases hc
    have hv : ∃ a, r = .speed (.ok a) ∧ a.modified = b := by
      cases r <;> try cases hx
      rename_i a
      cases a <;> cases hx
      exact ⟨_, rfl, rfl⟩
    obtain ⟨a, rfl, rfl⟩ := hv
    obtain ⟨t, c, rest, -, hv⟩ := setSpeed_path (answered_path h ha)
    obtain ⟨m, hm, -, hm', -, -⟩ := hv a rfl
    obtain ⟨m₂, h1, -, -, h2, h3⟩ := C42_speed_set_partial U h ha
    have e : m₂ = m := by
      have := congrArg UInt32.toNat (h1.symm.trans hm')
      simpa [← UInt8.toNat_inj] using this
    subst e
    have h39 := (C39_modify_speed c.val.currentMode (UInt32.ofNat n.toNat) false).2.2.2.2.2
    rw [hm] at h39
    have hn' : (UInt32.ofNat n.toNat).toNat = n.toNat := by
      rw [UInt32.toNat_ofNat']; omega
    have h4 : m₂.toNat = n.toNat := by
      have := (h39 ⟨fun h0 => ?_, by omega, rfl⟩).2 rfl
      · exact this.trans hn'
      · have := congrArg UInt32.toNat h0
        simp only [hn', UInt32.toNat_zero] at this
        omega
    refine ⟨i, m₂, by omega, hn.1, hn.2, fun hb => h2 hb, fun hb => ?_⟩
    obtain ⟨c, pre, post, htr, hc, hs⟩ := h3 hb
    exact ⟨hs, c, saw htr, hc⟩

/-- **C91** `increase_fan_speed()` and `decrease_fan_speed()`: `True` means that the unit was told a
speed one higher or lower than the one in the cache, has confirmed it and runs at it until the next
speed command; `False`, that there is no such speed, and nothing was sent. -/
theorem C91_step {ω : Type} {S : Setup σ} (U : SettingUnit 0x99 S.line S.env) {w : World σ} {s : Sys σ}
    (h : Reachable S (Sys.initial w) s) {net : Call → ω → Option Resp × ω} {v v' : ω}
    (hb : Brings net v s) {p : Py PyVal} {up : Bool}
    (hp : IsOp p (if up then .increaseFanSpeed else .decreaseFanSpeed)) {b : Bool}
    (hr : p.run net v = (.ok (.bool b), v')) :
    ∃ (i : Nat) (c : Entry FanProfiles), Saw s i .profiles c ∧
      (b = true → ∃ m : UInt8, 1 ≤ m.toNat ∧ m.toNat ≤ 4 ∧
        (if up then m.toNat = c.val.currentMode.toNat + 1 else m.toNat + 1 = c.val.currentMode.toNat) ∧
        Effected U s i [m]) ∧
      (b = false → Silent s i ∧
        if up then 4 ≤ c.val.currentMode.toNat
        else c.val.currentMode.toNat ≤ 1 ∨ 6 ≤ c.val.currentMode.toNat) := by
  obtain ⟨call, i, r, hc, ha, hx⟩ := op_answered hb hp hr
  have hc : call = .setSpeed 0 up := by
    cases up <;> cases hc <;> rfl
  subst hc
  have hsil : ∀ {acts : List Act}, actsOf (.client i) s.sh.trace = acts → written acts = [] → Silent s i := by
    intro acts he hw bs r' hmem
    have : Act.wrote bs r' ∈ acts := by
      rw [← he]
      simp only [actsOf, List.mem_filterMap]
      exact ⟨_, hmem, by simp⟩
    have : bs ∈ written acts := by
      simp only [written, List.mem_filterMap]
      exact ⟨_, this, rfl⟩
    rw [hw] at this
    cases this
  have hsaw : ∀ {t : Int} {c : Entry FanProfiles} {rest : List Act},
      actsOf (.client i) s.sh.trace = .now t :: .lock .fan :: .load .profiles c :: rest →
      Saw s i .profiles c := by
    intro t c rest he
    have : actsOf (.client i) s.sh.trace = [.now t, .lock .fan] ++ .load .profiles c :: rest := he
    obtain ⟨pre, post, htr, -, -⟩ := actsOf_split this
    exact saw htr
  have heff : ∀ {m : UInt8}, Commanded (frame 0x99 [m]) (actsOf (.client i) s.sh.trace) →
      Effected U s i [m] := by
    intro m hs
    obtain ⟨g, hi⟩ := inv4 U h
    obtain ⟨pre, rest, hc⟩ := sent_confirmed hs
    exact ⟨pre, rest, hc, hi.glob.2.conf _ _ pre rest hc⟩
  have hrng : ∀ {t : Int} {c : Entry FanProfiles} {rest : List Act},
      actsOf (.client i) s.sh.trace = .now t :: .lock .fan :: .load .profiles c :: rest →
      b = true → ∃ m : UInt8, 1 ≤ m.toNat ∧ m.toNat ≤ 4 ∧
        (if up then m.toNat = c.val.currentMode.toNat + 1 else m.toNat + 1 = c.val.currentMode.toNat) ∧
        Effected U s i [m] := by
    intro t c rest he hb
    subst hb
    have hv : ∃ a, r = .speed (.ok a) ∧ a.modified = true := by
      cases up <;> cases r <;> try cases hx
      all_goals
        rename_i a
        cases a
        · simp only [Bool.false_eq_true, if_true, if_false, PyOp.returns, Except.ok.injEq, PyVal.bool.injEq] at hx
          exact ⟨_, rfl, hx⟩
        · rename_i e
          cases e <;> cases hx
    obtain ⟨a, rfl, hmod⟩ := hv
    obtain ⟨t', c', rest', he', hv⟩ := setSpeed_path (answered_path h ha)
    obtain ⟨m, hm, -, hm', -, -⟩ := hv a rfl
    obtain ⟨m₂, h1, h2, h3, h4, -⟩ := C42_speed_set_partial U h ha
    have e : m₂ = m := by
      have := congrArg UInt32.toNat (h1.symm.trans hm')
      simpa [← UInt8.toNat_inj] using this
    subst e
    have e : c' = c := by
      have := he.symm.trans he'
      simp only [List.cons.injEq, true_and] at this
      injection this.2.1 with _ h
      exact h.symm
    subst e
    have h39 := C39_modify_speed c'.val.currentMode 0 up
    rw [hm] at h39
    refine ⟨m₂, h2, h3, ?_, h4 hmod⟩
    cases up with
    | true => exact (h39.2.2.2.1 ⟨rfl, rfl⟩).2 rfl
    | false => exact (h39.2.2.2.2.1 ⟨rfl, rfl⟩).2 rfl
  cases up with
  | true =>
    obtain ⟨-, t, c, rest, he, h2, h3, -⟩ :=
      C51_increase h ha (net := fun _ (v : Unit) => (some r, v)) (v := ()) rfl
    refine ⟨i, c, hsaw he, hrng he, fun hb => ?_⟩
    subst hb
    have hout : (pyIncreaseFanSpeed.run (fun _ (v : Unit) => (some r, v)) ()).1 = .ok false := by
      cases r <;> try cases hx
      rename_i a
      cases a
      · simp only [if_true, PyOp.returns, Except.ok.injEq, PyVal.bool.injEq] at hx
        simp [pyIncreaseFanSpeed, Py.run, speedModified, catchInvalid, hx]
      · rename_i e
        cases e <;> cases hx
        rfl
    exact ⟨hsil rfl (h3 hout), h2.1 hout⟩
  | false =>
    obtain ⟨-, t, c, rest, he, h2, h3, -⟩ :=
      C51_decrease h ha (net := fun _ (v : Unit) => (some r, v)) (v := ()) rfl
    refine ⟨i, c, hsaw he, hrng he, fun hb => ?_⟩
    subst hb
    have hout : (pyDecreaseFanSpeed.run (fun _ (v : Unit) => (some r, v)) ()).1 = .ok false := by
      cases r <;> try cases hx
      rename_i a
      cases a
      · simp only [Bool.false_eq_true, if_false, PyOp.returns, Except.ok.injEq, PyVal.bool.injEq] at hx
        simp [pyDecreaseFanSpeed, Py.run, speedModified, catchInvalid, hx]
      · rename_i e
        cases e <;> cases hx
        rfl
    exact ⟨hsil rfl (h3 hout), h2.1 hout⟩

/-- **C91** `set_comfort_temperature(t)`: `True` means that the unit was told `t` degrees, has confirmed
it, and is set to `t` degrees until the next such command; `False`, that `t` is the temperature in the
cache (as converted to a byte) and nothing was sent. -/
theorem C91_comfort {ω : Type} {S : Setup σ} (U : SettingUnit 0xD3 S.line S.env) {w : World σ} {s : Sys σ}
    (h : Reachable S (Sys.initial w) s) {net : Call → ω → Option Resp × ω} {v v' : ω}
    (hb : Brings net v s) {p : Py PyVal} {t : Option Int} (hp : IsOp p (.setComfortTemperature t))
    {b : Bool} (hr : p.run net v = (.ok (.bool b), v')) :
    ∃ (i : Nat) (x : Int), t = some x ∧ 0 ≤ x ∧ x ≤ 255 ∧
      (b = true → ∃ d : UInt8, (d.toNat : Int) = (x + 20) * 2 ∧ degrees d = x ∧ Effected U s i [d]) ∧
      (b = false → Silent s i ∧ ∃ c : Entry Temps, Saw s i .temps c ∧
        ((S.cv.u8 c.val.comfort).toNat : Int) = x) := by
  obtain ⟨call, i, r, hc, ha, hx⟩ := op_answered hb hp hr
  cases t with
  | none => cases hc
  | some x =>
  simp only [PyOp.asks] at hc
  split at hc
  case isFalse => cases hc
  case isTrue hn =>
    cases hc
    have hv : ∃ a, r = .comfort (.ok a) ∧ a.modified = b := by
      cases r <;> try cases hx
      rename_i a
      cases a <;> cases hx
      exact ⟨_, rfl, rfl⟩
    obtain ⟨a, rfl, rfl⟩ := hv
    obtain ⟨-, -, h2, h3⟩ := C59_comfort_set_partial U h ha
    have hn' : (UInt32.ofNat x.toNat).toNat = x.toNat := by
      rw [UInt32.toNat_ofNat']; omega
    rw [hn'] at h2 h3
    refine ⟨i, x, rfl, hn.1, hn.2, fun hb => ?_, fun hb => ?_⟩
    · obtain ⟨d, hd, he⟩ := h2 hb
      exact ⟨d, by omega, by unfold degrees; omega, he⟩
    · obtain ⟨c, pre, post, htr, hc, hs⟩ := h3 hb
      exact ⟨hs, c, saw htr, by omega⟩

/-- **C91** `configure_fan_profile(m, x)`: `True` means that the unit was told `x` percent for both fans of
mode `m`, has confirmed it, and has these percentages until the next such command; `False`, that `x` is
the percentage of the in-fan of mode `m` in the cache, and nothing was sent. -/
theorem C91_profile {ω : Type} {S : Setup σ} (U : SettingUnit 0xCF S.line S.env) {w : World σ} {s : Sys σ}
    (h : Reachable S (Sys.initial w) s) {net : Call → ω → Option Resp × ω} {v v' : ω}
    (hb : Brings net v s) {p : Py PyVal} {m x : Int} (hp : IsOp p (.configureFanProfile m x))
    {b : Bool} (hr : p.run net v = (.ok (.bool b), v')) :
    ∃ (i : Nat) (pc : UInt8), (pc.toNat : Int) = x ∧ 15 ≤ x ∧ x ≤ 100 ∧ 1 ≤ m ∧ m ≤ 4 ∧
      (b = true → ∃ d, d.length = 8 ∧ (∀ k ∈ entries (m.toNat - 1), d[k]? = some pc) ∧
        Effected U s i d) ∧
      (b = false → Silent s i ∧ ∃ c : Entry FanProfiles, Saw s i .profiles c ∧
        (percentages c.val)[([3, 4, 5, 7] : List Nat).getD (m.toNat - 1) 0]? = some pc) := by
  obtain ⟨call, i, r, hc, ha, hx⟩ := op_answered hb hp hr
  simp only [PyOp.asks] at hc
  split at hc
  · cases hc
  · rename_i h1
    split at hc
    · cases hc
    · rename_i h2
      cases hc
      have hv : ∃ a, r = .speed (.ok a) ∧ a.modified = b := by
        cases r <;> try cases hx
        rename_i a
        cases a <;> cases hx
        exact ⟨_, rfl, rfl⟩
      obtain ⟨a, rfl, rfl⟩ := hv
      obtain ⟨mode, pc, h3, h4, -, -, -, -, -, h5, h6⟩ := C65_profile_set_partial U h ha
      have hm' : (UInt32.ofNat m.toNat).toNat = m.toNat := by
        rw [UInt32.toNat_ofNat']; omega
      have hx' : (UInt32.ofNat x.toNat).toNat = x.toNat := by
        rw [UInt32.toNat_ofNat']; omega
      rw [hm'] at h3
      rw [hx'] at h4
      have e : mode.toNat = m.toNat := by omega
      rw [e] at h5 h6
      refine ⟨i, pc, by omega, by omega, by omega, by omega, by omega, fun hb => ?_, fun hb => ?_⟩
      · obtain ⟨d, pre, rest, h7, h8, h9⟩ := h5 hb
        exact ⟨d, h7, h8, pre, rest, h9⟩
      · obtain ⟨c, pre, post, htr, hc, hs⟩ := h6 hb
        exact ⟨hs, c, saw htr, hc⟩

/-- A network that brings the answer of the first such request that has one. -/
def answers (s : Sys σ) (c : Call) (v : Unit) : Option Resp × Unit :=
  (s.clients.findSome? fun k =>
    if k.call = c then (match k.prog with | .ret r => some r | _ => none) else none, v)

theorem answers_brings (s : Sys σ) : Brings (answers s) () s := by
  intro c r h
  simp only [answers] at h
  obtain ⟨k, hk, h2⟩ := List.exists_of_findSome?_eq_some h
  clear h
  split at h2
  · rename_i he
    obtain ⟨i, hi⟩ := List.getElem?_of_mem hk
    refine ⟨i, hi.trans ?_⟩
    obtain ⟨call, prog⟩ := k
    cases he
    cases prog <;> cases h2
    rfl
  · cases h2

/-- The hypotheses are met: the comfort temperature is set in Python from 21 to 25 degrees, and the unit
is set to 25 degrees; the speed is set from 3 to 2, the unit runs at speed 2; and setting it to 3, which
it is, gives `False`. -/
example : (∃ s, Reachable vent (Sys.initial (ventStart 3)) s ∧
      (s.sh.world.line.comfort == 90 &&
        match ((syncOp (.setComfortTemperature (some 25))).run (answers s) ()).1 with
        | .ok (.bool b) => b | _ => false) = true) ∧
    (∃ s, Reachable vent (Sys.initial (ventStart 3)) s ∧
      (s.sh.world.line.speed == 2 &&
        match ((asyncOp (pyInit none (some 1)) (.setFanSpeed 2)).run (answers s) ()).1 with
        | .ok (.bool b) => b | _ => false) = true) ∧
    (∃ s, Reachable vent (Sys.initial (ventStart 3)) s ∧
      (match ((syncOp (.setFanSpeed 3)).run (answers s) ()).1 with
        | .ok (.bool b) => !b | _ => false) = true) := by
  refine ⟨exec_witness _ ([.arrive (.setComfort 25)] ++ steps 20 (.client 0)) (fun _ _ => trivial) _ ?_,
    exec_witness _ ([.arrive (.setSpeed 2 false)] ++ steps 35 (.client 0)) (fun _ _ => trivial) _ ?_,
    exec_witness _ ([.arrive (.setSpeed 3 false)] ++ steps 5 (.client 0)) (fun _ _ => trivial) _ ?_⟩
  all_goals decide +kernel

end Comfo.Props
