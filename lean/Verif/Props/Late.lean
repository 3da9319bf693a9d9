import Verif.Lemmas.Play
import Verif.Spec.Late
import Verif.Props.Jobs
/-!
# Reads that are answered too late (C109)

C106 says how long a Get request takes at the most: for the temperatures, the fans and the profiles a
little more than five seconds if a request that changes them is under way as well. Here is an execution in which it
does take that long.
-/
namespace Comfo.Props
open Spec Play

/-- The worker is refreshing the temperatures and a request that has changed the comfort temperature wants to refresh
them too when the Get request (the third client) arrives; another request uses the line whenever it can. -/
def lateBeats : List Beat :=
  let b (n : Nat) : List Beat := (steps n (.client 0)).map .act
  let c (n : Nat) : List Beat := (steps n (.client 1)).map .act
  let w (n : Nat) : List Beat := (steps n .worker).map .act
  [.act (.arrive (.setComfort 22))] ++ b 7 ++ [.act (.tick .fast)] ++ w 1 ++ b 1 ++
  [.act (.arrive (.setProfile 1 40))] ++ c 6 ++ w 3 ++ [.act (.arrive .getTemps)] ++ [.rest 1000000000] ++
  c 3 ++ w 2 ++ [.rest 1000000000] ++ w 3 ++ c 2 ++ w 2 ++ b 1 ++ w 4 ++ b 2 ++ [.rest 1000000000] ++
  c 3 ++ w 2 ++ c 4 ++ [.rest 1000000000] ++ w 3 ++ b 2 ++ w 2 ++ [.rest 1000000000] ++
  b 5 ++ (steps 3 (.client 2)).map .act


theorem late_fine : Fine ventServed lateBeats (Sys.initial duelStart) 0 where
  env l := ⟨l.broken, l.mute, rfl⟩
  calls c hc := by
    have : lateBeats.all (fun b => match b with
      | .act (.arrive c) => c = .setComfort 22 ∨ c = .setProfile 1 40 ∨ c = .getTemps
      | _ => true) = true := by decide +kernel
    rcases of_decide_eq_true (List.all_eq_true.1 this _ hc) with rfl | rfl | rfl <;> trivial
  runs := by decide +kernel
  prompt := by decide +kernel
  queued := by decide +kernel

theorem prompt_mono {L : Line σ} {f : Nat → Sys σ} {δ δ' : Nat} (h : Prompt L f δ) (hd : δ ≤ δ') : Prompt L f δ' := by
  intro t m n hmn hm hi a ha
  have := h t m n hmn hm hi a ha
  have : lasting δ a ≤ lasting δ' a := by cases a <;> simp only [lasting] <;> omega
  omega

/-- What is executed along the schedule. -/
def late : Nat → Sys Vent := play ventServed lateBeats (Sys.initial duelStart)

theorem late_all {P : Sys Vent → Prop} (h : ∀ n : Fin 71, P (late n)) (n : Nat) : P (late n) := by
  rcases Nat.lt_or_ge n 71 with hn | hn
  · exact h ⟨n, hn⟩
  · have : late n = late 70 := play_end (show lateBeats.length ≤ n from Nat.le_of_lt hn)
    rw [this]; exact h 70

theorem late_two (k : Nat) : (late k).clients.length ≤ 3 :=
  late_all (P := fun s => s.clients.length ≤ 3) (by decide +kernel) k

theorem late_read : LateRead ventServed late 2 .temps 22 62 := by
  refine ⟨by omega, rfl, ?_, ?_⟩
  · intro r h
    have : ((late 62).clients.all fun c => !Prog.isRet c.prog) = true := by decide +kernel
    have := List.all_eq_true.1 this _ (List.mem_of_getElem? h)
    cases this
  · show ¬ (_ < _)
    decide +kernel

/-- **C109** (1) A Get request may be answered too late though goroutines are scheduled as fast as one likes, locks are
given to those who have waited longest, and there are but two other requests. -/
theorem C109_violated : ∃ (f : Nat → Sys Vent) (i m n : Nat), Execution ventServed duelStart f ∧
    (∀ δ, Prompt ventServed.line f δ) ∧ Queued f ∧ (∀ k, (f k).clients.length ≤ 3) ∧
    LateRead ventServed f i .temps m n :=
  ⟨late, 2, 22, 62, play_run late_fine, fun _ => prompt_mono (play_prompt late_fine) (Nat.zero_le _),
    play_queued late_fine, late_two, late_read⟩

variable {S : Setup σ} {w : World σ} {f : Nat → Sys σ}

theorem acts_clock {L : Line σ} {t : Tid} {a : Act} {sh sh' : Shared σ} (h : Acts L t a sh sh') :
    sh.world.clock ≤ sh'.world.clock := by
  cases h with
  | now => exact tick_mono _
  | sleep => show _ ≤ _ + _; omega
  | store => rename_i id e; unfold World.set; cases id <;> exact Int.le_refl _
  | _ => exact Int.le_refl _

theorem late_clock (hf : Execution S w f) (n : Nat) : (f n).sh.world.clock ≤ (f (n + 1)).sh.world.clock := by
  rcases hf.next n with h | h
  · generalize f (n + 1) = s' at h
    cases h with
    | work hw =>
      cases hw with
      | client _ _ _ _ _ _ _ ha => exact acts_clock ha
      | worker _ _ _ _ ha => exact acts_clock ha
      | flush => exact Int.le_refl _
      | flushed => exact Int.le_refl _
    | tick | arrive => exact Int.le_refl _
    | environment => show _ ≤ _ + _; omega
  · rw [h]; exact Int.le_refl _

/-- **C109** (2) A Get request that is late is for the temperatures, the fans or the profiles, and when it arrives
a request that changes them is under way. It is late by no more than what the scheduler and other Get requests for the
same values take. -/
theorem C109_late_partial (hL : S.line.NoPanic) (hS : ∀ c, S.calls c → OnServer c) (hf : Execution S w f) {δ : Nat}
    (hp : Prompt S.line f δ) (hq : Queued f) {i : Nat} {id : CacheId} {m n : Nat}
    (hδ : (22 + 3 * readers (f m) id) * δ < 2000000000) (h : LateRead S f i id m n) :
    (id = .temps ∨ id = .fans ∨ id = .profiles) ∧
    (∃ c ∈ (f m).clients, touches c.call id ∧ ∀ r, c.prog ≠ .ret r) ∧
    (f n).sh.world.clock ≤ (f m).sh.world.clock + 5000000000 + ((39 + 3 * readers (f m) id) * δ : Nat) := by
  obtain ⟨hmn, ha, hu, hl⟩ := h
  have hck : (f n).sh.world.clock ≤ (f (n + 1)).sh.world.clock := late_clock hf n
  have hb := C106_get hL hS hf hp hq hmn ha hu
  unfold InTime writeTimeout at hl
  have hid : id = .temps ∨ id = .fans ∨ id = .profiles := by
    cases id with
    | temps | fans | profiles => simp
    | boot | bypass | errors =>
      rw [Nat.add_mul] at hδ
      simp only [turnover] at hb
      omega
  refine ⟨hid, ?_, ?_⟩
  · apply Classical.byContradiction
    intro hn
    refine hl (Int.lt_of_le_of_lt hck (C106_in_time hL hS hf hp hq hmn ha (fun c hc ht => ?_) hδ hu))
    apply Classical.byContradiction
    intro hr
    exact hn ⟨c, hc, ht, fun r e => hr ⟨r, e⟩⟩
  · have : turnover δ id = 5000000000 + 39 * δ := by
      rcases hid with rfl | rfl | rfl <;> rfl
    rw [this] at hb
    rw [Nat.add_mul]
    omega

/-- The read above is such a one, and later it is answered all the same: five seconds after it arrived, which is as long
as C106 allows if the scheduler takes no time. The request that changed the temperatures is the first. -/
example : (∃ c ∈ (late 22).clients, touches c.call .temps ∧ ∀ r, c.prog ≠ .ret r) ∧
    (late 62).sh.world.clock = (late 22).sh.world.clock + 5000000000 ∧
    (late 62).sh.world.clock ≤ (late 22).sh.world.clock + 5000000000 + ((39 + 3 * readers (late 22) .temps) * 0 : Nat) ∧
    ∃ t, Answered (late 70) 2 .getTemps (.temps (.ok t)) := by
  have := C109_late_partial vent_noPanic (fun _ h => h) (play_run late_fine) (play_prompt late_fine)
    (play_queued late_fine) (by rw [Nat.mul_zero]; decide) late_read
  exact ⟨this.2.1, by decide +kernel, this.2.2, _, rfl⟩

end Comfo.Props
