import Verif.Model.Async
import Verif.Spec.Async
import Verif.Props.Client
/-! # The asynchronous variants of the Python client (C87) -/
namespace Comfo.Props
open Spec

/-- Methods as programs with a common type of results. -/
def _root_.Comfo.Py.as (f : α → PyVal) (p : Py α) : Py PyVal := p.bind fun a => .ret (f a)

/-- The methods. -/
def syncOp : PyOp → Py PyVal
  | .ping => pyPing.as .bool
  | .getBootinfo => pyGetBootinfo.as .boot
  | .getBypass => pyGetBypass.as .bypass
  | .getTemps => pyGetTemps.as .temps
  | .getFans => pyGetFans.as .fans
  | .getFanProfiles => pyGetFanProfiles.as .profiles
  | .getErrors => pyGetErrors.as .errors
  | .setFanSpeed s => (pySetFanSpeed s).as .bool
  | .increaseFanSpeed => pyIncreaseFanSpeed.as .bool
  | .decreaseFanSpeed => pyDecreaseFanSpeed.as .bool
  | .setComfortTemperature t => (pySetComfortTemperature t).as .bool
  | .configureFanProfile m p => (pyConfigureFanProfile m p).as .bool

/-- Their asynchronous variants. -/
def asyncOp (self : PyComfo) : PyOp → Py PyVal
  | .ping => (pyAsyncPing self).as .bool
  | .getBootinfo => (pyAsyncGetBootinfo self).as .boot
  | .getBypass => (pyAsyncGetBypass self).as .bypass
  | .getTemps => (pyAsyncGetTemps self).as .temps
  | .getFans => (pyAsyncGetFans self).as .fans
  | .getFanProfiles => (pyAsyncGetFanProfiles self).as .profiles
  | .getErrors => (pyAsyncGetErrors self).as .errors
  | .setFanSpeed s => (pyAsyncSetFanSpeed self s).as .bool
  | .increaseFanSpeed => (pyAsyncIncreaseFanSpeed self).as .bool
  | .decreaseFanSpeed => (pyAsyncDecreaseFanSpeed self).as .bool
  | .setComfortTemperature t => (pyAsyncSetComfortTemperature self t).as .bool
  | .configureFanProfile m p => (pyAsyncConfigureFanProfile self m p).as .bool

/-- `p` makes the call that `asks` says, exactly once, or none, and returns or raises what it
should. -/
def Does (p : Py PyVal) (op : PyOp) (asks : Except PyErr Call) : Prop :=
  ∀ (ω : Type) (net : Call → ω → Option Resp × ω) (v : ω),
    p.run net v =
      match asks with
      | .error e => (.error e, v)
      | .ok c => (op.returns (net c v).1, (net c v).2)

theorem pyU32_eq {v : Int} (h0 : 0 ≤ v) (h1 : v ≤ 255) : pyU32 v = some (UInt32.ofNat v.toNat) := by
  unfold pyU32; rw [if_pos ⟨h0, by omega⟩]

theorem speed_as (op : PyOp) (h : (∃ s, op = .setFanSpeed s) ∨ ∃ m p, op = .configureFanProfile m p)
    (net : Call → ω → Option Resp × ω) (v : ω) (r : Option Resp) :
    ((speedModified r).as .bool).run net v = (op.returns r, v) := by
  obtain ⟨s, rfl⟩ | ⟨m, p, rfl⟩ := h <;>
    · rcases r with _ | (x | x | x | x | x | x | x | x | x)
      all_goals first | rfl | (rcases x with x | x <;> rfl)

theorem sync_does (op : PyOp) : Does (syncOp op) op op.asks := by
  intro ω net v
  cases op with
  | setFanSpeed s =>
    by_cases h : 1 ≤ s ∧ s ≤ 4
    · have h1 : s ∈ validSpeeds := (valid_iff s).2 h
      simp only [syncOp, pySetFanSpeed, h1, not_true_eq_false, if_false, PyOp.asks, if_pos h,
        pyU32_eq (v := s) (by omega) (by omega)]
      exact speed_as _ (.inl ⟨_, rfl⟩) _ _ _
    · have h1 : s ∉ validSpeeds := fun hh => h ((valid_iff s).1 hh)
      simp only [syncOp, pySetFanSpeed, h1, not_false_eq_true, if_true, PyOp.asks, if_neg h]
      rfl
  | setComfortTemperature t =>
    cases t with
    | none => rfl
    | some t =>
      by_cases h : 0 ≤ t ∧ t ≤ 255
      · simp only [syncOp, pySetComfortTemperature, PyOp.asks, if_pos h,
          pyU32_eq h.1 h.2, if_neg (show ¬ (t < 0 ∨ t > 255) by omega)]
        show ((comfortModified _).as .bool).run net _ = _
        generalize (net (.setComfort _) v).1 = r
        rcases r with _ | (x | x | x | x | x | x | x | x | x)
        all_goals first | rfl | (rcases x with x | x <;> rfl)
      · simp only [syncOp, pySetComfortTemperature, PyOp.asks, if_neg h,
          if_pos (show t < 0 ∨ t > 255 by omega)]
        rfl
  | configureFanProfile m p =>
    by_cases h : 1 ≤ m ∧ m ≤ 4
    · have h1 : m ∈ validSpeeds := (valid_iff m).2 h
      by_cases h' : 15 ≤ p ∧ p ≤ 100
      · simp only [syncOp, pyConfigureFanProfile, h1, not_true_eq_false, if_false, PyOp.asks, h, h',
          and_self, pyU32_eq (v := m) (by omega) (by omega),
          pyU32_eq (v := p) (by omega) (by omega), if_neg (show ¬ (p < 15 ∨ p > 100) by omega)]
        exact speed_as _ (.inr ⟨_, _, rfl⟩) _ _ _
      · simp only [syncOp, pyConfigureFanProfile, h1, not_true_eq_false, if_false, PyOp.asks, h,
          and_self, h', not_false_eq_true, if_true, if_pos (show p < 15 ∨ p > 100 by omega)]
        rfl
    · have h1 : m ∉ validSpeeds := fun hh => h ((valid_iff m).1 hh)
      simp only [syncOp, pyConfigureFanProfile, h1, not_false_eq_true, if_true, PyOp.asks, h]
      rfl
  | ping =>
    show ((((match (net .getBoot v).1 with
      | some (.boot (.ok pb)) => .ret (.init pb)
      | some (.boot (.err e)) => .raise (.server e)
      | _ => .raise .transport) : Py PyBootInfo).bind _).as _).run net _ = _
    simp only [PyOp.asks]
    generalize (net _ v).1 = r
    rcases r with _ | (x | x | x | x | x | x | x | x | x)
    all_goals first | rfl | (rcases x with x | x <;> rfl)
  | increaseFanSpeed =>
    show ((catchInvalid (speedModified _)).as _).run net _ = _
    simp only [PyOp.asks]
    generalize (net _ v).1 = r
    rcases r with _ | (x | x | x | x | x | x | x | x | x)
    all_goals first | rfl | (rcases x with x | x <;> first | rfl | (cases x <;> rfl))
  | decreaseFanSpeed =>
    show ((catchInvalid (speedModified _)).as _).run net _ = _
    simp only [PyOp.asks]
    generalize (net _ v).1 = r
    rcases r with _ | (x | x | x | x | x | x | x | x | x)
    all_goals first | rfl | (rcases x with x | x <;> first | rfl | (cases x <;> rfl))
  | _ =>
    simp only [syncOp, pyGetBootinfo, pyGetBypass, pyGetTemps, pyGetFans, pyGetFanProfiles,
      pyGetErrors, Py.as, Py.bind, Py.run, PyOp.asks]
    generalize (net _ v).1 = r
    rcases r with _ | (x | x | x | x | x | x | x | x | x)
    all_goals first | rfl | (rcases x with x | x <;> rfl)

/-- **C87** A method of the Python client makes the one remote call it is named after, with the
arguments as they are, or none if they are invalid, and returns or raises what the answer says,
whatever the network answers and does. -/
theorem C87_sync (op : PyOp) : Does (syncOp op) op op.asks := sync_does op

theorem async_eq (self : PyComfo) (op : PyOp) :
    asyncOp self op = match self.loop with
      | some _ => syncOp op
      | none => .raise .attributeError := by
  obtain ⟨l⟩ := self
  cases l <;> cases op <;> rfl

/-- **C87** An asynchronous variant does the same on a client with an event loop; on one without it
raises `AttributeError` and asks the server for nothing. -/
theorem C87_async (self : PyComfo) (op : PyOp) :
    Does (asyncOp self op) op (op.asksAsync self.loop.isSome) := by
  rw [async_eq]
  obtain ⟨l⟩ := self
  cases l with
  | none => intro ω net v; rfl
  | some l => exact sync_does op

/-- Both theorems at work: `configure_fan_profile(2, 35)` on a client with a loop and one without,
and on a server that refuses everything; the network counts the calls. -/
example :
    let net : Call → List Call → Option Resp × List Call := fun c l =>
      (some (match c with
        | .setProfile 2 35 => .speed (.ok { modified := true, originalSpeed := 30, targetSpeed := 35, reqTime := 0 })
        | _ => .speed (.err (.invalidArgument .modeRange))), l ++ [c])
    (match (asyncOp (pyInit none (some 3)) (.configureFanProfile 2 35)).run net [] with
      | (.ok (.bool true), [.setProfile 2 35]) => true | _ => false) = true ∧
    (match (asyncOp (pyInit none none) (.configureFanProfile 2 35)).run net [] with
      | (.error .attributeError, []) => true | _ => false) = true ∧
    (match (asyncOp (pyInit none (some 3)) (.configureFanProfile 2 14)).run net [] with
      | (.error .invalidDutyPercent, []) => true | _ => false) = true ∧
    (match (asyncOp (pyInit none (some 3)) .decreaseFanSpeed).run net [] with
      | (.ok (.bool false), [.setSpeed 0 false]) => true | _ => false) = true := by
  decide

end Comfo.Props
