import Verif.Spec.Range
import Verif.Props.Text
/-!
# The ranges that errors name: C94
-/
namespace Comfo.Props
open Spec Comfo.Pb Comfo.Twirp

/-- What can be read in the error for a refused argument. -/
theorem refusal_reads {W : Wording} {a : Refusal} {x : TwErr} (h : ErrorFor W (.invalidArgument a) x) :
    (a = .modeRange ∧ x.get (lit "argument") = lit "Mode" ∧ expected x.msg = some (1, 4)) ∨
    (a = .targetRange ∧ x.get (lit "argument") = lit "TargetSpeed" ∧ expected x.msg = some (15, 100)) ∨
    (a ≠ .modeRange ∧ a ≠ .targetRange ∧ x.get (lit "argument") ≠ lit "Mode" ∧
      x.get (lit "argument") ≠ lit "TargetSpeed") := by
  obtain ⟨-, h1, h2⟩ := h
  cases a with
  | modeRange =>
    exact .inl ⟨rfl, h2.trans (by decide +kernel), (congrArg expected h1).trans (by decide +kernel)⟩
  | targetRange =>
    exact .inr (.inl ⟨rfl, h2.trans (by decide +kernel), (congrArg expected h1).trans (by decide +kernel)⟩)
  | _ => exact .inr (.inr ⟨nofun, nofun, by rw [h2]; simp only [refused]; decide +kernel,
      by rw [h2]; simp only [refused]; decide +kernel⟩)

/-- **C94** When a `SetFanProfile` request is refused because of an argument, the error the server
makes of it, as a client sees it, names the argument and the range that is expected. The value the request had for it is outside that range, and
no request, by anyone at any time, whose value for it is in that range is refused because of it. -/
theorem C94_range {S : Setup σ} {w : World σ} {s : Sys σ} (h : Reachable S (Sys.initial w) s)
    {i : Nat} {m t : UInt32} {r : Resp} (ha : Answered s i (.setProfile m t) r) {a : Refusal}
    (he : r.error? = some (.invalidArgument a)) (W : Wording) {x : TwErr}
    (hx : SameError x (handlerError W .setFanProfile (.invalidArgument a))) :
    ∃ lo hi v, expected x.msg = some (lo, hi) ∧
      argumentOf (.setProfile m t) (x.get (lit "argument")) = some v ∧ ¬ (lo ≤ v ∧ v ≤ hi) ∧
      ∀ {σ' : Type} {S' : Setup σ'} {w' : World σ'} {s' : Sys σ'}, Reachable S' (Sys.initial w') s' →
        ∀ {i' : Nat} {c' : Call} {r' : Resp}, Answered s' i' c' r' →
        ∀ v', argumentOf c' (x.get (lit "argument")) = some v' → lo ≤ v' → v' ≤ hi →
        ∀ a' W' m' x', r'.error? = some (.invalidArgument a') → c'.method = some m' →
          SameError x' (handlerError W' m' (.invalidArgument a')) →
          x'.get (lit "argument") ≠ x.get (lit "argument") := by
  obtain ⟨mode, -, hf⟩ := C83_reason h ha
  have hf := (hf a).mp he
  have hx := handler_seen hx
  have n1 : lit "TargetSpeed" ≠ lit "Mode" := by decide +kernel
  have n2 : lit "ComfortTemp" ≠ lit "Mode" := by decide +kernel
  have n3 : lit "ComfortTemp" ≠ lit "TargetSpeed" := by decide +kernel
  rcases refusal_reads hx with ⟨rfl, e1, e2⟩ | ⟨rfl, e1, e2⟩ | ⟨k1, k2, -⟩
  · refine ⟨1, 4, m.toNat, e2, by simp [argumentOf, e1], ?_, ?_⟩
    · intro hv
      apply hf
      omega
    · intro σ' S' w' s' h' i' c' r' ha' v' hv l1 l2 a' W' m' x' he' _ hx'
      have hx' := handler_seen hx'
      obtain ⟨mode', -, hf'⟩ := C83_reason h' ha'
      have hf' := (hf' a').mp he'
      rw [e1] at hv ⊢
      intro e3
      rcases refusal_reads hx' with ⟨rfl, -, -⟩ | ⟨rfl, e4, -⟩ | ⟨-, -, k3, -⟩
      · cases c' with
        | setProfile m' t' =>
          simp only [argumentOf, if_true, Option.some.injEq] at hv
          apply hf'
          omega
        | _ => exact hf'.elim
      · exact n1 (e4.symm.trans e3)
      · exact k3 e3
  · refine ⟨15, 100, t.toNat, e2, by simp [argumentOf, e1, n1], ?_, ?_⟩
    · intro hv
      apply hf.2
      omega
    · intro σ' S' w' s' h' i' c' r' ha' v' hv l1 l2 a' W' m' x' he' _ hx'
      have hx' := handler_seen hx'
      obtain ⟨mode', -, hf'⟩ := C83_reason h' ha'
      have hf' := (hf' a').mp he'
      rw [e1] at hv ⊢
      intro e3
      rcases refusal_reads hx' with ⟨rfl, e4, -⟩ | ⟨rfl, -, -⟩ | ⟨-, -, -, k3⟩
      · exact n1 (e3.symm.trans e4)
      · cases c' with
        | setProfile m' t' =>
          simp only [argumentOf, n1, if_false, if_true, Option.some.injEq] at hv
          apply hf'.2
          omega
        | _ => exact hf'.elim
      · exact k3 e3
  · cases a with
    | modeRange => exact absurd rfl k1
    | targetRange => exact absurd rfl k2
    | _ => exact hf.elim

/-- **C94** When `SetComfortTemp` is refused because of its argument, the error says that it is too
large, and so it is: no smaller value that was accepted is above it, as every larger value is refused
in the same way. -/
theorem C94_too_large {S : Setup σ} {w : World σ} {s : Sys σ} (h : Reachable S (Sys.initial w) s)
    {i : Nat} {v : UInt32} {r : Resp} (ha : Answered s i (.setComfort v) r) {a : Refusal}
    (he : r.error? = some (.invalidArgument a)) (W : Wording) {x : TwErr}
    (hx : SameError x (handlerError W .setComfortTemp (.invalidArgument a))) :
    x.msg = lit "ComfortTemp is too large" ∧
      ∀ {σ' : Type} {S' : Setup σ'} {w' : World σ'} {s' : Sys σ'}, Reachable S' (Sys.initial w') s' →
        ∀ {i' : Nat} {v' : UInt32} {r' : Resp}, Answered s' i' (.setComfort v') r' →
          v.toNat ≤ v'.toNat → r'.error? = some (.invalidArgument a) := by
  obtain ⟨mode, -, hf⟩ := C83_reason h ha
  have hf := (hf a).mp he
  cases a with
  | tempTooLarge =>
    refine ⟨(handler_seen hx).2.1.trans (by decide +kernel), ?_⟩
    intro σ' S' w' s' h' i' v' r' ha' hv
    obtain ⟨mode', -, hf'⟩ := C83_reason h' ha'
    exact (hf' .tempTooLarge).mpr (Nat.lt_of_lt_of_le hf hv)
  | _ => exact hf.elim

/-! ## The hypotheses are met -/

/-- A request for mode 5 and one for 14 percent, and what the errors name. -/
example : ∃ s, Reachable demo (Sys.initial demoStart) s ∧
    Answered s 0 (.setProfile 5 50) (.speed (.err (.invalidArgument .modeRange))) ∧
    Answered s 1 (.setProfile 2 14) (.speed (.err (.invalidArgument .targetRange))) ∧
    Answered s 2 (.setComfort 256) (.comfort (.err (.invalidArgument .tempTooLarge))) := by
  have h := execs_sound (S := demo) (cmds := [.arrive (.setProfile 5 50)] ++ steps 1 (.client 0) ++
      [.arrive (.setProfile 2 14)] ++ steps 1 (.client 1) ++
      [.arrive (.setComfort 256)] ++ steps 2 (.client 2))
    (fun _ _ => trivial) (.start (s₀ := Sys.initial demoStart)) rfl
  exact ⟨_, h, rfl, rfl, rfl⟩

example : ErrorFor toyWording (.invalidArgument .modeRange)
      (handlerError toyWording .setFanProfile (.invalidArgument .modeRange)) ∧
    expected (handlerError toyWording .setFanProfile (.invalidArgument .modeRange)).msg = some (1, 4) ∧
    expected (handlerError toyWording .setFanProfile (.invalidArgument .targetRange)).msg =
      some (15, 100) := by
  refine ⟨⟨rfl, ?_, ?_⟩, ?_, ?_⟩ <;> decide +kernel

end Comfo.Props
