import Verif.Lemmas.Load
import Verif.Spec.Deadline
/-!
Helper lemmas: how long the waits of a program may be, whatever the other goroutines do and even if it
does not come to an end.
-/
namespace Comfo
open Spec

/-- The waits that `p` has still before it are at most `n` nanoseconds. -/
def Prog.Within : Prog α → Nat → Prop
  | ret _, _ => True
  | panic, _ => True
  | lock _ k, n => k.Within n
  | unlock _ k, n => k.Within n
  | rlock _ k, n => k.Within n
  | runlock _ k, n => k.Within n
  | now k, n => ∀ t, (k t).Within n
  | sleep ns k, n => ∃ m, ns + m ≤ n ∧ k.Within m
  | write _ k, n => ∀ r, (k r).Within n
  | read _ k, n => ∃ m, second + m ≤ n ∧ ∀ r, (k r).Within m
  | load _ k, n => ∀ c, (k c).Within n
  | store _ _ k, n => k.Within n
  | note _ _ k, n => k.Within n
  | sendFlush _ k, n => k.Within n
  | recvFlushed k, n => ∀ b, (k b).Within n
  | sendFlushed _ k, n => k.Within n

namespace Prog.Within

theorem mono {p : Prog α} {n m : Nat} (h : p.Within n) (hm : n ≤ m) : p.Within m := by
  induction p generalizing n m with
  | ret | panic => trivial
  | read e k ih => obtain ⟨a, h1, h2⟩ := h; exact ⟨a, by omega, h2⟩
  | sleep t k ih => obtain ⟨a, h1, h2⟩ := h; exact ⟨a, by omega, h2⟩
  | _ => rename_i ih; first | exact ih h hm | exact fun t => ih t (h t) hm

theorem bind {p : Prog α} {f : α → Prog β} {n m : Nat} (h : p.Within n)
    (hf : ∀ a, (f a).Within m) : (p.bind f).Within (n + m) := by
  induction p generalizing n with
  | ret a => exact (hf a).mono (by omega)
  | panic => trivial
  | read bs k ih =>
    obtain ⟨a, h1, h2⟩ := h
    exact ⟨a + m, by omega, fun r => ih r (h2 r)⟩
  | sleep t k ih =>
    obtain ⟨a, h1, h2⟩ := h
    exact ⟨a + m, by omega, ih h2⟩
  | _ => rename_i ih; first | exact ih h | exact fun t => ih t (h t)

theorem map {p : Prog α} {f : α → β} {n : Nat} (h : p.Within n) : (p.map f).Within n :=
  h.bind (m := 0) fun _ => trivial

theorem next {p q : Prog α} {a : Act} {n : Nat} (h : p.Within n) (hn : p.Next a q) :
    ∃ m, atMost a + m ≤ n ∧ q.Within m := by
  cases hn with
  | read r => obtain ⟨m, h1, h2⟩ := h; exact ⟨m, h1, h2 r⟩
  | sleep => exact h
  | now t => exact ⟨n, Nat.le_of_eq (Nat.zero_add n), h t⟩
  | write t => exact ⟨n, Nat.le_of_eq (Nat.zero_add n), h t⟩
  | load t => exact ⟨n, Nat.le_of_eq (Nat.zero_add n), h t⟩
  | recvFlushed t => exact ⟨n, Nat.le_of_eq (Nat.zero_add n), h t⟩
  | _ => exact ⟨n, Nat.le_of_eq (Nat.zero_add n), h⟩

theorem path {p q : Prog α} {acts : List Act} {n : Nat} (h : p.Within n) (hp : Path p acts q) :
    ∃ m, longest acts + m ≤ n ∧ q.Within m := by
  induction hp with
  | nil => exact ⟨n, by simp [longest], h⟩
  | snoc _ hn ih =>
    obtain ⟨m, h1, h2⟩ := ih
    obtain ⟨k, h3, h4⟩ := h2.next hn
    refine ⟨k, ?_, h4⟩
    simp only [longest, List.map_append, List.sum_append, List.map_cons, List.map_nil, List.sum_cons,
      List.sum_nil] at h1 ⊢
    omega

end Prog.Within

theorem within_query (p : Packet) : (queryPacketP p).Within second := by
  unfold queryPacketP
  show Prog.Within (match marshalPacket p with
    | (_, some e) => _
    | (pb, none) => _) second
  split
  · trivial
  · rintro ⟨n, err⟩
    cases err with
    | some e => trivial
    | none =>
      refine ⟨0, Nat.le_refl _, ?_⟩
      rintro ⟨out, err⟩
      cases err with
      | some e => trivial
      | none =>
        dsimp only
        split
        · trivial
        · rintro ⟨m, err⟩
          cases err with
          | some e => trivial
          | none =>
            dsimp only
            split <;> trivial

theorem within_set (inp : SetRequest) : (setQueryP inp).Within second := by
  unfold setQueryP
  match encodeSetRequest inp with
  | (_, some e) => trivial
  | (p, none) => exact (within_query p).bind (m := 0) fun _ => trivial

theorem within_getter {β : Type} {gr : GetRequest} {zero : β} {assert : Response → Option β} :
    (getterP gr zero assert).Within second := by
  unfold getterP
  refine Prog.Within.bind (m := 0) (within_query (encodeGetRequest gr)) ?_
  rintro ⟨qp, e⟩
  cases e with
  | some e => trivial
  | none =>
    show Prog.Within (match decodeResponse qp with
      | .panic => _
      | .ret _ (some e) => _
      | .ret none none => _
      | .ret (some resp) none => _) 0
    split <;> try trivial
    show Prog.Within (match assert _ with
      | some v => _
      | none => _) 0
    split <;> trivial

theorem within_fetch (id : CacheId) : id.fetch.Within second := by
  cases id <;> exact within_getter

theorem within_update (id : CacheId) (force : Bool) : (update id force).Within second := by
  have hr : ∀ now : Int, Prog.Within (.note id now <| id.fetch.bind fun (v, err) =>
      match err with
      | none => .store id { val := v, last := now } <| .unlock (.cache id) <| .ret ()
      | some _ => .unlock (.cache id) <| .ret ()) second := by
    intro now
    refine Prog.Within.bind (m := 0) (within_fetch id) ?_
    rintro ⟨v, err⟩
    cases err <;> trivial
  unfold update
  intro now
  cases force
  · intro c
    show Prog.Within (ite _ _ _) second
    split
    · trivial
    · exact hr now
  · exact hr now

theorem within_tick (k : Tick) : (onTick k).Within (2 * second) := by
  cases k <;> exact (within_update _ _).bind fun _ => within_update _ _

/-- Polling, and what follows it. -/
theorem within_poll {α : Type} (a b : UInt8) {f : Option SrvErr → Prog α} (h : (f none).Within second)
    (k : (f (some .pollFailed)).Within 0) (n : Nat) :
    ((pollLoop a b n).bind f).Within (n * 1500000000 + 500000000) := by
  induction n with
  | zero => exact k.mono (Nat.zero_le _)
  | succ n ih =>
    have hs : Prog.Within (.sleep 500000000 ((pollLoop a b n).bind f)) (n * 1500000000 + 1000000000) :=
      ⟨_, by omega, ih⟩
    show Prog.Within (Prog.bind (Prog.bind (update .fans true) _) f) _
    rw [bind_assoc]
    refine Prog.Within.mono ((within_update _ _).bind (m := n * 1500000000 + 1000000000) fun _ => ?_)
      (by unfold second; omega)
    intro e
    show Prog.Within (Prog.bind (ite _ _ _) f) _
    split
    · intro g
      show Prog.Within (Prog.bind (ite _ _ _) f) _
      split
      · exact h.mono (by unfold second; omega)
      · exact hs
    · exact hs

theorem within_speed (abs : UInt32) (rel : Bool) : (setFanSpeed abs rel).Within 16500000000 := by
  unfold setFanSpeed
  intro start c
  show Prog.Within (match modifySpeed _ abs rel with
    | (_, some e) => _
    | (tgtSpeed, none) => _) 16500000000
  split
  · trivial
  · dsimp only
    split
    · refine Prog.Within.bind (n := second) (m := 15500000000) (within_set _) ?_
      intro err
      cases err with
      | some e => trivial
      | none =>
        intro c
        show Prog.Within (Prog.bind (match FanProfiles.lookup _ _ with
          | (_, some e) => _
          | ((inPct, outPct), none) => _) _) _
        split
        · trivial
        · refine within_poll _ _ ?_ ?_ 10
          · exact (within_update _ _).bind (m := 0) fun _ => fun _ => trivial
          · trivial
    · exact fun _ => trivial

theorem within_comfort (cv : FloatConv) (v : UInt32) : (setComfortTemp cv v).Within (2 * second) := by
  unfold setComfortTemp
  intro start c
  show Prog.Within (if v > 255 then _ else _) (2 * second)
  split
  · trivial
  · split
    · refine Prog.Within.bind (n := second) (m := second) (within_set _) ?_
      intro err
      cases err with
      | some e => trivial
      | none => exact (within_update _ _).bind (m := 0) fun _ => fun _ => trivial
    · exact fun _ => trivial

theorem within_profile (mode pct : UInt8) : (setFanProfileP mode pct).Within (2 * second) := by
  unfold setFanProfileP
  split
  · trivial
  split
  · trivial
  refine Prog.Within.bind (n := second) (m := second) (within_fetch .profiles) ?_
  rintro ⟨v, err⟩
  cases err with
  | some e => trivial
  | none => exact Prog.Within.bind (n := second) (m := 0) (within_set _) fun _ => trivial

theorem within_profileRpc (m t : UInt32) : (setFanProfileRpc m t).Within (3 * second) := by
  unfold setFanProfileRpc
  intro start
  show Prog.Within (ite _ _ _) (3 * second)
  split
  · trivial
  dsimp only
  split
  · trivial
  have cont : ∀ o : UInt8, Prog.Within (if o ≠ t.toUInt8 then
      (setFanProfileP (m.toUInt8 - 1) t.toUInt8).bind fun err =>
        match err with
        | some e => .unlock .fan <| .ret (.err (.internal (.lib e)))
        | none =>
          (update .profiles true).bind fun _ =>
          .now fun stop => .unlock .fan <| .ret (Rpc.ok
            (⟨true, o.toUInt32, t, timeSub stop start⟩ : SpeedModified))
      else .now fun stop => .unlock .fan <| .ret (Rpc.ok
            (⟨false, o.toUInt32, t, timeSub stop start⟩ : SpeedModified))) (3 * second) := by
    intro o
    split
    · refine Prog.Within.mono (Prog.Within.bind (n := 2 * second) (m := second) (within_profile _ _) ?_)
        (by omega)
      intro err
      cases err with
      | some e => trivial
      | none => exact (within_update _ _).bind (m := 0) fun _ => fun _ => trivial
    · exact fun _ => trivial
  show Prog.Within (ite _ _ _) (3 * second)
  split
  · exact fun _ => cont _
  split
  · exact fun _ => cont _
  split
  · exact fun _ => cont _
  split
  · exact fun _ => cont _
  · trivial

theorem within_protobuf (id : CacheId) (conv : CVal id → β) : (protobuf id conv).Within 0 := by
  intro c
  trivial

/-- How long a request may wait. -/
theorem within_call (cv : FloatConv) (c : Call) : (c.prog cv).Within (patience c) := by
  cases c with
  | getBoot | getBypass | getErrors | getFans | getProfiles | getTemps =>
    exact (within_protobuf _ _).map
  | setComfort v => exact (within_comfort cv v).map
  | setSpeed a r => exact (within_speed a r).map
  | setProfile m t => exact (within_profileRpc m t).map
  | flush t => exact Prog.Within.map fun _ _ _ => trivial
  | libQuery p => exact (within_query p).map
  | libGet id => exact (within_fetch id).map
  | libSetComfort v => exact (within_set _).map
  | libSetSpeed v => exact (within_set _).map
  | libSetProfile m s => exact (within_profile m s).map
  | libSetProfiles q => exact (within_set _).map

end Comfo
