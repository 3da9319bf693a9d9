import Verif.Lemmas.Query
import Verif.Props.Query
/-!
# C113: what the functions of the connection return is what happened

`WaitTimeout`, `WritePacket` and `WriteAck` return a boolean and an error. Whether something was
written is said here in terms of the bytes the connection accepted.
-/
namespace Comfo.Props
open Spec

/-- **C113** (violated) `WriteAck` (`libcomfo/conn.go:152-164`) never sets its boolean: it is false
even if the ACK was written and there is no error. -/
theorem C113_writeAck_violated :
    ¬ (∀ c : Conn, (writeAck c).2.sent = c.sent ++ ack → (writeAck c).1.2 = none →
      (writeAck c).1.1 = true) := by
  intro h
  exact absurd (h {} (by decide) (by decide)) (by decide)

/-- **C113** (violated) `WaitTimeout` promises true if the channel reads before the timer expires
(`libcomfo/conn.go:15-16`), but returns what the channel yields (line 21). -/
theorem C113_waitTimeout_violated :
    ¬ (∀ v : Bool, waitTimeout (some v) false = (true, none)) := by
  intro h
  exact absurd (h false) (by decide)

/-- **C113** (violated) `WritePacket` does not look at the number of bytes written
(`libcomfo/conn.go:143`): with a writer that takes a part without an error it returns true. -/
theorem C113_writePacket_violated :
    ¬ (∀ (p : Packet) (c : Conn), (writePacket p c).1.1 = true →
      (writePacket p c).2.sent = c.sent ++ frame p.command p.data) := by
  intro h
  exact absurd (h { command := 0x69 } { wr := [.short 3] } (by decide)) (by decide)

/-- **C113** (partial) What can be relied on.
1. `WritePacket` returns true exactly if it returns no error. If the writer keeps the contract of
   `io.Writer`, the whole frame has been written then. An error is either that of a packet that is
   too long, and then nothing was written, or that of the writer.
2. `WriteAck` returns no error only if the whole ACK was written; if it was and there is an error,
   it is that of the writer. An ACK that was cut is reported.
3. `WaitTimeout` returns the error exactly if the channel yields nothing before the timer fires or
   `select` takes the timer, and otherwise what the channel yields. -/
theorem C113_results_partial (p : Packet) (c : Conn) (wait : Option Bool) (timer : Bool) :
    (((writePacket p c).1.1 = true ↔ (writePacket p c).1.2 = none) ∧
      ((writePacket p c).1.1 = true → HonestWriter c →
        (writePacket p c).2.sent = c.sent ++ frame p.command p.data) ∧
      (∀ e, (writePacket p c).1.2 = some e →
        (e = .tooLong ∧ 255 < p.data.length ∧ (writePacket p c).2.sent = c.sent) ∨
        (e = .io ∧ p.data.length ≤ 255 ∧ ∃ k, c.wr.head? = some (.fail k)))) ∧
    (((writeAck c).1.2 = none → (writeAck c).2.sent = c.sent ++ ack) ∧
      (∀ e, (writeAck c).1.2 = some e → (writeAck c).2.sent = c.sent ++ ack →
        e = .io ∧ ∃ k, c.wr.head? = some (.fail k)) ∧
      ((writeAck c).2.sent ≠ c.sent ++ ack → (writeAck c).1.2 ≠ none)) ∧
    (((waitTimeout wait timer).2 = some .timeout ↔ wait = none ∨ timer = true) ∧
      (∀ e, (waitTimeout wait timer).2 = some e → e = .timeout ∧ (waitTimeout wait timer).1 = false) ∧
      ((waitTimeout wait timer).2 = none → wait = some (waitTimeout wait timer).1)) := by
  refine ⟨?_, ?_, ?_⟩
  · by_cases hl : 255 < p.data.length
    · rw [(writePacket_spec p c).1 hl]
      refine ⟨by simp, by simp, fun e he => .inl ?_⟩
      cases he
      exact ⟨rfl, hl, rfl⟩
    · have hl' : p.data.length ≤ 255 := by omega
      have hb : (writePacket p c).1.1 = true ↔ (writePacket p c).1.2 = none := by
        unfold writePacket
        split <;> simp
        split <;> simp
      refine ⟨hb, ?_, ?_⟩
      · intro ht hh
        obtain ⟨ok, e, n, hw, -, -, hn, hall, -⟩ := (writePacket_spec p c).2 hl'
        have he := hb.1 ht
        rw [hw] at he ⊢
        have hk := hn.1 he
        have hhead : c.wr.head? = none ∨ c.wr.head? = some .ok := by
          match hc : c.wr with
          | [] => simp
          | .ok :: _ => simp
          | .short n :: w => exact absurd (by rw [hc]; simp) (hh n)
          | .fail n :: w => exact absurd (by rw [hc]; simp) (hk n)
        simp [Conn.wrote, hall hhead]
      · intro e he
        obtain ⟨ok, e', n, hw, -, hio, hn, -⟩ := (writePacket_spec p c).2 hl'
        rw [hw] at he
        refine .inr ⟨hio e he, hl', ?_⟩
        refine Classical.byContradiction fun hk => ?_
        have := hn.2 fun k h => hk ⟨k, h⟩
        rw [show e' = some e from he] at this
        cases this
  · have hok : (writeAck c).1.2 = none → (writeAck c).2.sent = c.sent ++ ack := by
      obtain ⟨e, n, hw, -, -, h2, -⟩ := writeAck_spec c
      rw [hw]
      intro he
      rw [h2 he]
      rfl
    refine ⟨hok, ?_, fun h he => h (hok he)⟩
    intro e he hs
    obtain ⟨e', n, hw, hn, -, -, h0, hf, hsh⟩ := writeAck_spec c
    rw [hw] at he hs
    have he' : e' = some e := he
    subst he'
    have hl : (ack.take n).length = 2 := by
      have := congrArg List.length hs
      simp only [Conn.wrote, List.length_append] at this
      have hack : ack.length = 2 := rfl
      omega
    have hn2 : n = 2 := by
      rw [List.length_take] at hl
      have hack : ack.length = 2 := rfl
      omega
    match hc : c.wr with
    | [] => exact absurd (h0 (.inl (by rw [hc]; rfl))) (by simp)
    | .ok :: _ => exact absurd (h0 (.inr (by rw [hc]; rfl))) (by simp)
    | .fail k :: w =>
      have := (hf k (by rw [hc]; rfl)).1
      cases this
      exact ⟨rfl, k, rfl⟩
    | .short k :: w =>
      exfalso
      have hk := (hsh k (by rw [hc]; rfl)).1
      have : (writeAck c).1.2 = none := by
        unfold writeAck Conn.write
        rw [hc]
        have h1 : (pktAck.take k).length = pktAck.length := by
          rw [List.length_take]
          have : pktAck.length = 2 := rfl
          omega
        simp [h1]
      rw [hw] at this
      cases this
  · cases wait <;> cases timer <;> simp [waitTimeout]

/-- A packet is written, an ACK is cut, a channel yields false in time. -/
example :
    writePacket { command := 0x69 } {} =
      ((true, none), { sent := [0x07, 0xF0, 0x00, 0x69, 0x00, 0x16, 0x07, 0x0F] }) ∧
    writeAck { wr := [.short 1] } = ((false, some .ack), { sent := [0x07] }) ∧
    writeAck { wr := [.fail 2] } = ((false, some .io), { sent := [0x07, 0xF3] }) ∧
    waitTimeout (some false) false = (false, none) ∧ waitTimeout (some true) true = (false, some .timeout) := by
  decide

end Comfo.Props
