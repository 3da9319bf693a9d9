import Verif.Lemmas.Writes
import Verif.Props.Proto
/-!
# Commands to the unit: C70, C71
-/
namespace Comfo.Props
open Spec Comfo.Pb

/-! ## C71 -/

/-- **C71** In every execution, whatever is written to the unit is an acknowledgement, a request for
values, or a command written on behalf of a set request, and then it is a command this request may
send: speeds 1–4, the temperature asked for, the percentage asked for in the mode asked for. -/
theorem C71_only_set_requests {S : Setup σ} {w : World σ} {s : Sys σ}
    (h : Reachable S (Sys.initial w) s) {t : Tid} {bs : List UInt8} {r : Nat × Option Err}
    (ht : (t, Act.wrote bs r) ∈ s.sh.trace) :
    bs = ack ∨ (∃ id, bs = frame (requestCode id) []) ∨
    ∃ (i : Nat) (c : Client), t = .client i ∧ s.clients[i]? = some c ∧ MayCommand c.call bs := by
  rcases (winv h).trace t bs r ht with (h | h) | h
  · exact .inl h
  · exact .inr (.inl h)
  · exact .inr (.inr h)

/-- **C71** for a server that only gets `Get` and `FlushCache` requests: no command is ever
written. -/
theorem C71_read_only {S : Setup σ} (hS : ∀ c, S.calls c → c = .getBoot ∨ c = .getBypass ∨
      c = .getErrors ∨ c = .getFans ∨ c = .getProfiles ∨ c = .getTemps ∨ ∃ t, c = .flush t)
    {w : World σ} {s : Sys σ} (h : Reachable S (Sys.initial w) s) {t : Tid} {bs : List UInt8}
    {r : Nat × Option Err} (ht : (t, Act.wrote bs r) ∈ s.sh.trace) :
    bs = ack ∨ ∃ id, bs = frame (requestCode id) [] := by
  have hcalls : ∀ (i : Nat) (c : Client), s.clients[i]? = some c → S.calls c.call := by
    clear ht
    generalize hs : Sys.initial w = s₀ at h
    induction h with
    | start => subst hs; intro i c h; simp [Sys.initial] at h
    | step h hst ih =>
      have hmod : ∀ {s : Sys σ} {j : Nat} {p : Prog Resp},
          (∀ (i : Nat) (c : Client), s.clients[i]? = some c → S.calls c.call) →
          ∀ (i : Nat) (c : Client), (s.setClient j p)[i]? = some c → S.calls c.call := by
        intro s j p hc i c h
        obtain ⟨c', h1, h2, -⟩ := setClient_call h
        rw [← h2]
        exact hc i c' h1
      cases hst with
      | work hw => cases hw <;> first | exact ih | exact hmod ih
      | tick => exact ih
      | arrive c hc =>
        intro i d hd
        rcases List.mem_append.1 (List.mem_of_getElem? hd) with h | h
        · obtain ⟨k, hk⟩ := List.getElem?_of_mem h
          exact ih k d hk
        · simp only [List.mem_singleton] at h
          subst h
          exact hc
      | environment => exact ih
  rcases C71_only_set_requests h ht with h | h | ⟨i, c, -, h2, h3⟩
  · exact .inl h
  · exact .inr h
  · rcases hS _ (hcalls i c h2) with e | e | e | e | e | e | ⟨t, e⟩ <;> rw [e] at h3 <;> cases h3

/-- Commands are written: while `SetFanSpeed(2)` and `SetComfortTemp(25)` are being served, the
trace contains both commands, and the allowed ones are these. -/
example : (∃ s, Reachable vent (Sys.initial (ventStart 3)) s ∧
    (commandsB 0x99 s.sh.trace == 1 && commandsB 0xD3 s.sh.trace == 1) = true) ∧
    MayCommand (.setSpeed 2 false) (frame 0x99 [2]) ∧ MayCommand (.setComfort 25) (frame 0xD3 [90]) ∧
    ¬ MayCommand (.setSpeed 2 false) (frame 0x99 [3]) ∧ ¬ MayCommand .getFans (frame 0x99 [2]) := by
  refine ⟨exec_witness _ ([.arrive (.setSpeed 2 false), .arrive (.setComfort 25)] ++
    steps 8 (.client 0) ++ steps 20 (.client 1)) (fun _ _ => trivial) _ ?_,
    ⟨2, by decide, by decide, rfl, fun _ => ⟨rfl, rfl⟩⟩, ⟨90, rfl, rfl⟩, ?_, fun h => h⟩
  · set_option maxRecDepth 4000 in decide
  · rintro ⟨m, -, -, h, hm⟩
    have h1 := (hm (by decide)).2
    have h2 : (frame 0x99 [m]).getD 5 0 = 3 := by rw [← h]; rfl
    have h3 : low 2 = 2 := rfl
    have h4 : m = UInt8.ofNat 2 := by rw [← h3, ← h1]; simp
    rw [h4] at h2
    exact absurd h2 (by decide)

/-! ## C70 -/

/-- A body without fields. -/
theorem empty_message : Message [] [] := .nil

/-- **C70** (violated) A `SetComfortTemp` request without any field set is accepted as 0 °C: the unit
was set to 21 °C, and is set to 0 °C. -/
theorem C70_violated_comfort : ∃ s v, Reachable vent (Sys.initial (ventStart 2)) s ∧
    Answered s 0 (asked .setComfortTemp []) (.comfort (.ok v)) ∧ v.modified = true ∧
    (ventStart 2).line.comfort.toNat = (21 + 20) * 2 ∧
    s.sh.world.line.comfort.toNat = (0 + 20) * 2 := by
  have h2 := execs_sound (S := vent) (cmds := [.arrive (.setComfort 0)] ++ steps 20 (.client 0))
    (fun _ _ => trivial) (.start (s₀ := Sys.initial (ventStart 2))) rfl
  exact ⟨_, _, h2, rfl, rfl, rfl, rfl⟩

/-- **C70** (violated) A `SetFanSpeed` request without any field set lowers the speed. -/
theorem C70_violated_speed : ∃ s, Reachable vent (Sys.initial (ventStart 3)) s ∧
    (commandsB 0x99 s.sh.trace == 1 && s.sh.world.line.speed == 2 &&
      match s.clients.map Client.call, s.clients.map Client.prog with
      | [c], [.ret (.speed (.ok v))] =>
        decide (c = asked .setFanSpeed []) && v.modified && v.originalSpeed == 3 && v.targetSpeed == 2
      | _, _ => false) = true := by
  refine exec_witness _ ([.arrive (.setSpeed 0 false)] ++ steps 35 (.client 0)) (fun _ _ => trivial) _ ?_
  set_option maxRecDepth 4000 in decide

/-- **C70** (partial) For the other methods: a request without any field set writes nothing to the
unit but requests for values and acknowledgements. Missing: `SetComfortTemp` and `SetFanSpeed`. -/
theorem C70_empty_partial {S : Setup σ} {w : World σ} {s : Sys σ}
    (h : Reachable S (Sys.initial w) s) (m : Method) (hm : m ≠ .setComfortTemp)
    (hm' : m ≠ .setFanSpeed) {i : Nat} {c : Client} (hc : s.clients[i]? = some c)
    (hcall : c.call = asked m []) {bs : List UInt8} {r : Nat × Option Err}
    (ht : (.client i, Act.wrote bs r) ∈ s.sh.trace) :
    bs = ack ∨ ∃ id, bs = frame (requestCode id) [] := by
  rcases C71_only_set_requests h ht with h | h | ⟨j, d, h1, h2, h3⟩
  · exact .inl h
  · exact .inr h
  · cases h1
    rw [hc] at h2
    cases h2
    rw [hcall] at h3
    cases m with
    | setComfortTemp => exact absurd rfl hm
    | setFanSpeed => exact absurd rfl hm'
    | setFanProfile => exact absurd h3.1 (by decide)
    | _ => cases h3

/-- An empty `FlushCache` request is one to flush the boot information: while it is being served,
only requests for values and acknowledgements are written. -/
example : asked .flushCache [] = .flush 0 ∧
    (Sys.execs vent ([.arrive (.flush 0)] ++ steps 2 (.client 0) ++ steps 10 .worker ++
        steps 2 (.client 0)) (Sys.initial (ventStart 2))).any (fun s =>
      s.sh.trace.any fun x => match x with
        | (_, .wrote bs _) => bs == frame 0x67 []
        | _ => false) = true := by decide +kernel

end Comfo.Props
