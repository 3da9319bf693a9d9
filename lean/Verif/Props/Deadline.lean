import Verif.Lemmas.Deadline
import Verif.Props.Healthy
import Verif.Lemmas.Patience
import Verif.Props.Timed
/-!
# C86: a query is over one second after its request is written
-/
namespace Comfo.Props
open Spec Comfo

/-- The query by phases: the request is not written, or it is written and the packet is read with the
timer that was started then. -/
theorem queryPacketAt_phases (p : Packet) (c : TimedConn) :
    (∃ e, e ≠ .timeout ∧ (queryPacketAt p c).1 = .ret {} (some e) ∧
      ((queryPacketAt p c).2.clock = c.clock ∨ (queryPacketAt p c).2.clock = askedAt c) ∧
      ∀ u : Conn, u.wr = c.wr → u.sent = c.sent →
        (queryPacket p u).1 = .ret {} (some e) ∧ (queryPacket p u).2.sent = (queryPacketAt p c).2.sent) ∨
    (∃ w s, let c1 : TimedConn := { c with wr := w, sent := s, clock := askedAt c, takes := c.takes.tail }
      let r := readPacketAt c1 (askedAt c + second) p.expect
      (∀ u : Conn, u.wr = c.wr → u.sent = c.sent → ∀ o v,
        readPacket { u with wr := w, sent := s } p.expect = (o, v) → o = r.1 → v.wr = r.2.wr →
        v.sent = r.2.sent → (queryPacket p u).1 = (queryPacketAt p c).1 ∧
          (queryPacket p u).2.sent = (queryPacketAt p c).2.sent) ∧
      ((∃ q, (queryPacketAt p c).1 = .ret q (some .timeout)) →
        ∃ q, r.1 = .ret q (some .timeout) ∧ (queryPacketAt p c).2.clock = r.2.clock) ∧
      ((queryPacketAt p c).2.clock = r.2.clock ∨
        (queryPacketAt p c).2.clock = r.2.clock + r.2.takes.headD 0) ∧
      (∀ q, r.1 = .ret q (some .timeout) → (queryPacketAt p c).1 = .ret q (some .timeout))) := by
  unfold queryPacketAt writePacketAt
  cases hm : marshalPacket p with
  | mk pb e =>
  cases e with
  | some e =>
    have he : e ≠ .timeout := by
      rintro rfl
      unfold marshalPacket at hm
      simp only at hm
      split at hm <;> simp at hm
    exact .inl ⟨e, he, rfl, .inl rfl, fun u h k => by simp [queryPacket, writePacket, hm, k]⟩
  | none =>
    simp only
    obtain ⟨⟨n, e⟩, w, s, h1, h2, h3⟩ := c.write_eq (pktStart ++ pb ++ pktEnd)
    rw [h1]
    cases e with
    | some e =>
      refine .inl ⟨e, fun h => h3 (by rw [h]), rfl, .inr rfl, fun u h k => ?_⟩
      simp only [queryPacket, writePacket, hm, h2 u h k]
      trivial
    | none =>
      refine .inr ⟨w, s, ?_⟩
      simp only
      rw [show c.clock + c.takes.headD 0 = askedAt c from rfl, show (1000000000 : Nat) = second from rfl]
      generalize hr : readPacketAt _ (askedAt c + second) p.expect = r
      obtain ⟨g, c2⟩ := r
      have hu : ∀ u : Conn, u.wr = c.wr → u.sent = c.sent → ∀ o v,
          readPacket { u with wr := w, sent := s } p.expect = (o, v) →
          queryPacket p u = match (o, v) with
            | (.panic, c) => (.panic, c)
            | (.ret out (some e), c) => (.ret out (some e), c)
            | (.ret out none, c) =>
              if p.expect ∧ out.command ≠ p.command + 1 then (.ret out (some .invalidResponse), c)
              else
                match writeAck c with
                | ((_, err), c) => (.ret out err, c) := by
        intro u h k o v hv
        simp only [queryPacket, writePacket, hm, h2 u h k, hv]
        rfl
      cases g with
      | panic =>
        refine ⟨fun u h k o v hv a b d => ?_, by simp, .inl rfl, by simp⟩
        rw [hu u h k o v hv]
        subst a
        exact ⟨rfl, d⟩
      | ret out e =>
        cases e with
        | some e =>
          refine ⟨fun u h k o v hv a b d => ?_, fun ⟨q, hq⟩ => ⟨q, hq, rfl⟩, .inl rfl, fun q h => h⟩
          rw [hu u h k o v hv]
          subst a
          exact ⟨rfl, d⟩
        | none =>
          simp only
          by_cases hc : p.expect = true ∧ out.command ≠ p.command + 1
          · simp only [if_pos hc]
            refine ⟨fun u h k o v hv a b d => ?_, by simp, by simp, by simp⟩
            rw [hu u h k o v hv]
            subst a
            simp only [if_pos hc]
            exact ⟨by simp, d⟩
          · simp only [if_neg hc]
            obtain ⟨⟨m, e⟩, w', s', k1, k2, k3⟩ := c2.write_eq pktAck
            have ha : ∃ b e', writeAckAt c2 = ((b, e'), { c2 with
                wr := w', sent := s', clock := c2.clock + c2.takes.headD 0, takes := c2.takes.tail }) ∧
                e' ≠ some .timeout ∧ ∀ v : Conn, v.wr = c2.wr → v.sent = c2.sent →
                  writeAck v = ((b, e'), { v with wr := w', sent := s' }) := by
              unfold writeAckAt writeAck
              rw [k1]
              cases e with
              | some e =>
                exact ⟨_, _, rfl, k3, fun v h k => by rw [k2 v h k]⟩
              | none =>
                simp only
                split
                · exact ⟨_, _, rfl, by simp, fun v h k => by rw [k2 v h k]; simp [*]⟩
                · exact ⟨_, _, rfl, by simp, fun v h k => by rw [k2 v h k]; simp [*]⟩
            obtain ⟨b, e', a1, a2, a3⟩ := ha
            rw [a1]
            refine ⟨fun u h k o v hv a b d => ?_, fun ⟨q, hq⟩ => ?_, .inr rfl, by simp⟩
            · rw [hu u h k o v hv]
              subst a
              simp only [if_neg hc, a3 v b d]
              trivial
            · simp only [Go.ret.injEq] at hq
              exact absurd hq.2 a2

/-- **C86** A query ends at a moment `m` at most one second after its request is written, or as much
later as writing the ACK takes. It does not sleep over an answer: `m` is when it started, when its
request is written, when something arrives, or when the second is over. Whatever arrives, however long
the writes take. -/
theorem C86_bound (p : Packet) (c : TimedConn) :
    ∃ m, c.clock ≤ m ∧ m ≤ askedAt c + second ∧
      (m = c.clock ∨ m = askedAt c ∨ m = askedAt c + second ∨ ∃ y ∈ c.coming, m = y.1) ∧
      ((queryPacketAt p c).2.clock = m ∨ (queryPacketAt p c).2.clock = m + c.takes.getD 1 0) := by
  have h0 : c.clock ≤ askedAt c := Nat.le_add_right ..
  rcases queryPacketAt_phases p c with ⟨e, -, -, h | h, -⟩ | ⟨w, s, -, -, h, -⟩
  · exact ⟨_, Nat.le_refl _, Nat.le_trans h0 (Nat.le_add_right ..), .inl rfl, .inl h⟩
  · exact ⟨_, h0, Nat.le_add_right .., .inr (.inl rfl), .inl h⟩
  · obtain ⟨k, -⟩ := readPacketAt_waits (timer := askedAt c + second) (e := p.expect)
      (c := { c with wr := w, sent := s, clock := askedAt c, takes := c.takes.tail })
      (Nat.le_add_right ..)
    refine ⟨_, Nat.le_trans h0 k.start, k.stop, .inr k.moment, ?_⟩
    rw [k.takes] at h
    rcases h with h | h
    · exact .inl h
    · refine .inr (h.trans ?_)
      congr 1
      rcases c.takes with _ | ⟨a, _ | ⟨b, l⟩⟩ <;> rfl

/-- **C86** A query reports a timeout only when the second is over, not earlier and not later. -/
theorem C86_timeout (p : Packet) (c : TimedConn) (q : Packet)
    (h : (queryPacketAt p c).1 = .ret q (some .timeout)) :
    (queryPacketAt p c).2.clock = askedAt c + second := by
  rcases queryPacketAt_phases p c with ⟨e, he, h1, -⟩ | ⟨w, s, -, h1, -⟩
  · rw [h1] at h
    simp only [Go.ret.injEq, Option.some.injEq] at h
    exact absurd h.2 he
  · obtain ⟨q', hq, h2⟩ := h1 ⟨q, h⟩
    rw [h2]
    rcases (readPacketAt_waits (timer := askedAt c + second) (e := p.expect)
      (c := { c with wr := w, sent := s, clock := askedAt c, takes := c.takes.tail })
      (Nat.le_add_right ..)).2 with k | k
    · exact k
    · exact absurd hq (k q')

/-- **C86** What counts is what arrives in that second: the query has the result of, and sends the same
bytes as, a query of which the script says that just this can be read. (If something arrives in the very
moment the second is over, `select` decides.) -/
theorem C86_outcome (p : Packet) (c : TimedConn) (ho : InOrder c.coming)
    (ht : ∀ x ∈ c.coming, x.1 ≠ askedAt c + second) :
    let u : Conn := { rd := c.here ++ before (askedAt c + second) c.coming, wr := c.wr, sent := c.sent }
    (queryPacketAt p c).1 = (queryPacket p u).1 ∧ (queryPacketAt p c).2.sent = (queryPacket p u).2.sent := by
  intro u
  rcases queryPacketAt_phases p c with ⟨e, -, h1, -, h2⟩ | ⟨w, s, h1, -⟩
  · obtain ⟨h3, h4⟩ := h2 u rfl rfl
    exact ⟨h1.trans h3.symm, h4.symm⟩
  · have a : Aligned (askedAt c + second)
        { c with wr := w, sent := s, clock := askedAt c, takes := c.takes.tail }
        { u with wr := w, sent := s } :=
      ⟨rfl, rfl, rfl, rfl, Nat.lt_add_of_pos_right (by decide), ho, ht⟩
    obtain ⟨k1, k2, k3⟩ := readPacketAt_aligned a p.expect
    have r1 := (readPacket_sent { u with wr := w, sent := s } p.expect).2
    have r2 := (readPacketAt_waits (timer := askedAt c + second) (e := p.expect)
      (c := { c with wr := w, sent := s, clock := askedAt c, takes := c.takes.tail })
      (Nat.le_add_right ..)).1.wr
    obtain ⟨h2, h3⟩ := h1 u rfl rfl _ _ rfl k1.symm (r1.trans r2.symm) k2.symm
    exact ⟨h2.symm, h3.symm⟩

/-- **C86** A reply that can be received (see C09) and that is there before the second is over is
returned and acknowledged, whatever comes after it. -/
theorem C86_reply (p : Packet) (hp : p.data.length ≤ 255) (hx : p.expect = true) (c : TimedConn)
    (hw : c.wr = []) (ho : InOrder c.coming) (ht : ∀ x ∈ c.coming, x.1 ≠ askedAt c + second)
    (hne : NoEmptyReads (c.here ++ before (askedAt c + second) c.coming))
    (pl trailing : List UInt8) (hpl : pl.length ≤ 255)
    (hn : NoDelim ((p.command + 1) :: UInt8.ofNat pl.length :: (pl ++ [checksum (p.command + 1) pl])))
    (hd : delivered (c.here ++ before (askedAt c + second) c.coming) =
      ack ++ frame (p.command + 1) pl ++ trailing) :
    (queryPacketAt p c).1 = .ret { command := p.command + 1, data := pl } none ∧
    (queryPacketAt p c).2.sent = c.sent ++ frame p.command p.data ++ ack := by
  obtain ⟨h1, h2⟩ := C86_outcome p c ho ht
  rw [h1, h2]
  have hr := (C09_receivable_partial { command := p.command + 1, data := pl } hpl
    { rd := c.here ++ before (askedAt c + second) c.coming, wr := c.wr, sent := c.sent } trailing
    hne (by simp) hd).2 hn
  rw [← hx] at hr
  obtain ⟨c', h3, -, h4⟩ := (C15_sent p hp _ hw).2.1 _ hr (fun _ => rfl)
  rw [h3]
  exact ⟨rfl, h4⟩

/-- What a reply that breaks off looks like. -/
theorem reply_prefix {w more b : List UInt8} (hb : NoDelim b) (hm : more ≠ [])
    (h : w ++ more = ack ++ (7 :: 0xF0 :: (b ++ [7, 0x0F]))) :
    ∃ (ds r : List UInt8), w = ds.flatMap (fun d => [7, d]) ++ r ∧ (∀ d ∈ ds, IsDelim d) ∧ ds.length < 3 ∧ NoDelim r ∧
      r.length ≤ b.length + 1 := by
  rcases w with _ | ⟨a1, _ | ⟨a2, _ | ⟨a3, _ | ⟨a4, w⟩⟩⟩⟩
  · exact ⟨[], [], rfl, by simp, by simp, noDelim_nil, by simp⟩
  · exact ⟨[], [a1], rfl, by simp, by simp, noDelim_single _, by simp⟩
  · simp [ack] at h
    obtain ⟨rfl, rfl, -⟩ := h
    exact ⟨[0xF3], [], rfl, by decide, by decide, noDelim_nil, by simp⟩
  · simp [ack] at h
    obtain ⟨rfl, rfl, rfl, -⟩ := h
    exact ⟨[0xF3], [7], rfl, by decide, by decide, noDelim_single _, by simp⟩
  · simp [ack] at h
    obtain ⟨rfl, rfl, rfl, rfl, h⟩ := h
    refine ⟨[0xF3, 0xF0], w, rfl, by decide, by decide, ?_⟩
    rcases List.eq_nil_or_concat more with rfl | ⟨m, z, rfl⟩
    · exact absurd rfl hm
    · have h' : (w ++ m) ++ [z] = (b ++ [7]) ++ [0x0F] := by simpa using h
      have := (List.append_inj' h' rfl).1
      have hp : w <+: b ++ [7] := ⟨m, this⟩
      exact ⟨noDelim_of_prefix hp (noDelim_append_seven hb), by simpa using hp.length_le⟩

/-- **C86** A reply of which something is still missing when the second is over is a timeout, just then,
and is not acknowledged, even if the rest comes a moment later. -/
theorem C86_late (p : Packet) (hp : p.data.length ≤ 255) (hx : p.expect = true) (c : TimedConn)
    (hw : c.wr = []) (ho : InOrder c.coming) (ht : ∀ x ∈ c.coming, x.1 ≠ askedAt c + second)
    (hne : NoEmptyReads (c.here ++ before (askedAt c + second) c.coming))
    (hb : breaks (c.here ++ before (askedAt c + second) c.coming) = false)
    (cmd : UInt8) (pl more : List UInt8) (hpl : pl.length ≤ 255)
    (hn : NoDelim (cmd :: UInt8.ofNat pl.length :: (pl ++ [checksum cmd pl]))) (hm : more ≠ [])
    (hd : delivered (c.here ++ before (askedAt c + second) c.coming) ++ more = ack ++ frame cmd pl) :
    (queryPacketAt p c).1 = .ret {} (some .timeout) ∧
    (queryPacketAt p c).2.clock = askedAt c + second ∧
    (queryPacketAt p c).2.sent = c.sent ++ frame p.command p.data := by
  obtain ⟨h1, h2⟩ := C86_outcome p c ho ht
  have hl : (body cmd pl).length ≤ 514 := length_body_le hpl
  obtain ⟨ds, r, hw', hds, hlen, hr, hrl⟩ := reply_prefix ((noDelim_body cmd pl).2 hn) hm
    (hd.trans (by simp [frame]))
  have hr := C11_silence_is_timeout
    { rd := c.here ++ before (askedAt c + second) c.coming, wr := c.wr, sent := c.sent } p.expect ds r
    hne hb hds hr (by omega) (by simpa [hx] using hlen) hw'
  obtain ⟨c', h3, h4⟩ := (C15_sent p hp _ hw).2.2.1 _ _ hr
  rw [h3] at h1 h2
  exact ⟨h1, C86_timeout p c _ h1, h2.trans h4⟩

/-- **C86** The same for a command that is only acknowledged: it succeeds if the acknowledgement is there
before the second is over, and times out, just then, if nothing is there or only its first byte. -/
theorem C86_command (p : Packet) (hp : p.data.length ≤ 255) (hx : p.expect = false) (c : TimedConn)
    (hw : c.wr = []) (ho : InOrder c.coming) (ht : ∀ x ∈ c.coming, x.1 ≠ askedAt c + second)
    (hne : NoEmptyReads (c.here ++ before (askedAt c + second) c.coming)) :
    (∀ trailing, delivered (c.here ++ before (askedAt c + second) c.coming) = ack ++ trailing →
      (queryPacketAt p c).1 = .ret {} none ∧
      (queryPacketAt p c).2.sent = c.sent ++ frame p.command p.data ++ ack) ∧
    (breaks (c.here ++ before (askedAt c + second) c.coming) = false →
      (delivered (c.here ++ before (askedAt c + second) c.coming)).length ≤ 1 →
      (queryPacketAt p c).1 = .ret {} (some .timeout) ∧
      (queryPacketAt p c).2.clock = askedAt c + second ∧
      (queryPacketAt p c).2.sent = c.sent ++ frame p.command p.data) := by
  obtain ⟨h1, h2⟩ := C86_outcome p c ho ht
  constructor
  · intro trailing hd
    have hr : (readPacket
        { rd := c.here ++ before (askedAt c + second) c.coming, wr := c.wr, sent := c.sent }
        p.expect).1 = .ret {} none := by
      rw [readPacket_ref hne, hd, hx]
      unfold refRead
      simp only [List.headD_nil]
      rw [show ack ++ trailing = 7 :: 0xF3 :: trailing from rfl, refStep_empty _ _ (by decide)]
      simp
    obtain ⟨c', h3, -, h4⟩ := (C15_sent p hp _ hw).2.1 _ hr (by simp [hx])
    rw [h3] at h1 h2
    exact ⟨h1, h2.trans h4⟩
  · intro hb hl
    have hr := C11_silence_is_timeout
      { rd := c.here ++ before (askedAt c + second) c.coming, wr := c.wr, sent := c.sent } p.expect []
      (delivered (c.here ++ before (askedAt c + second) c.coming)) hne hb (by simp)
      (by
        match hd : delivered (c.here ++ before (askedAt c + second) c.coming), hl with
        | [], _ => exact noDelim_nil
        | [a], _ => exact noDelim_single a
        | a :: b :: w, hl => simp at hl)
      (by omega) (by simp [hx]) rfl
    obtain ⟨c', h3, h4⟩ := (C15_sent p hp _ hw).2.2.1 _ _ hr
    rw [h3] at h1 h2
    exact ⟨h1, C86_timeout p c _ h1, h2.trans h4⟩

/-- **C86** In every interleaving and at every moment, whatever the unit does: what a request has spent
so far waiting for the unit and pausing is at most its `patience`. (Time it spends waiting for a lock is
time in which other requests wait like that.) -/
theorem C86_request {S : Setup σ} {w : World σ} {s : Sys σ} (h : Reachable S (Sys.initial w) s)
    {i : Nat} {cl : Client} (hc : s.clients[i]? = some cl) :
    longest (actsOf (.client i) s.sh.trace) ≤ patience cl.call := by
  obtain ⟨g, hi⟩ := inv1 h
  obtain ⟨m, h1, -⟩ := (within_call S.cv cl.call).path (hi.hist.path i cl hc).1
  omega

/-! ## Examples -/

/-- Asks for the fans at 5 s; the request takes 10 ms. -/
def askFans (coming : List (Nat × RdEv)) : TimedConn :=
  { clock := 5000000000, coming, takes := [10000000, 2000000] }

/-- The reply: fans at 30/35 %. -/
def fansReply : List UInt8 := ack ++ frame 0x0C [30, 35, 4, 0, 4, 0]

/-- A reply in three pieces, the last one 990 ms after the request. -/
def slowReply : TimedConn := askFans
  [(5100000000, .data (fansReply.take 3)), (5700000000, .data ((fansReply.drop 3).take 5)),
   (6000000000, .data (fansReply.drop 8))]

/-- The same with the last piece a little later: 1.001 s after the request, though only 0.4 s after the
piece before. -/
def lateReply : TimedConn := askFans
  [(5100000000, .data (fansReply.take 3)), (5700000000, .data ((fansReply.drop 3).take 5)),
   (6011000000, .data (fansReply.drop 8))]

theorem inOrder_slow : InOrder slowReply.coming := by unfold InOrder; decide
theorem inOrder_late : InOrder lateReply.coming := by unfold InOrder; decide

/-- In time: C86_reply applies. The ACK takes 2 ms more. -/
example : (queryPacketAt { command := 0x0B, expect := true } slowReply).1 =
      .ret { command := 0x0C, data := [30, 35, 4, 0, 4, 0] } none ∧
    (queryPacketAt { command := 0x0B, expect := true } slowReply).2.sent = frame 0x0B [] ++ ack :=
  C86_reply { command := 0x0B, expect := true } (by decide) rfl slowReply rfl inOrder_slow (by decide) (by decide)
    [30, 35, 4, 0, 4, 0] [] (by decide) (by decide) (by decide)
example : (queryPacketAt { command := 0x0B, expect := true } slowReply).2.clock = 6002000000 := by decide

/-- Too late: C86_late applies. -/
example : (queryPacketAt { command := 0x0B, expect := true } lateReply).1 = .ret {} (some .timeout) ∧
    (queryPacketAt { command := 0x0B, expect := true } lateReply).2.clock = 6010000000 ∧
    (queryPacketAt { command := 0x0B, expect := true } lateReply).2.sent = frame 0x0B [] :=
  C86_late { command := 0x0B, expect := true } (by decide) rfl lateReply rfl inOrder_late (by decide) (by decide)
    (by decide) 0x0C [30, 35, 4, 0, 4, 0] (fansReply.drop 8) (by decide) (by decide) (by decide)
    (by decide)

/-- The hypothesis on what arrives in the very moment is needed: then `select` decides. -/
example : let c := askFans [(6010000000, .data fansReply)]
    (queryPacketAt { command := 0x0B, expect := true } { c with late := [true] }).1 =
      .ret {} (some .timeout) ∧
    (queryPacketAt { command := 0x0B, expect := true } c).1 =
      .ret { command := 0x0C, data := [30, 35, 4, 0, 4, 0] } none := by decide

/-- A command acknowledged after 200 ms; one that is not. -/
example : queryPacketAt { command := 0x99, data := [3] } { coming := [(200000000, .data ack)] } =
    (.ret {} none, { clock := 200000000, sent := frame 0x99 [3] ++ ack }) := by decide
example : (queryPacketAt { command := 0x99, data := [3] } { coming := [(300000000, .data [7])] }).1 =
      .ret {} (some .timeout) ∧
    (queryPacketAt { command := 0x99, data := [3] } { coming := [(300000000, .data [7])] }).2.clock =
      1000000000 := by decide

/-- A write that fails is not waited for; nor is a packet that is too long. -/
example : (queryPacketAt { command := 0x99, data := [3] } { wr := [.fail 2], takes := [7] }).1 =
      .ret {} (some .io) ∧
    (queryPacketAt { command := 0x99, data := [3] } { wr := [.fail 2], takes := [7] }).2.clock = 7 := by
  decide

/-- The bounds of C86_request are reached: 2 s for the comfort temperature. -/
example : (Sys.execs demo ([.arrive (.setComfort 21)] ++ steps 20 (.client 0)) (Sys.initial demoStart)).any
    (fun s => longest (actsOf (.client 0) s.sh.trace) = 2 * second) = true := by decide

/-- A unit whose fans reach 15 % at the tenth reading. -/
def lazyLine : Line (UInt8 × Nat) where
  write bs s := ((bs.length, none),
    if bs.length = 2 then s else (bs.getD 3 0, if bs.getD 3 0 = 0x0B then s.2 + 1 else s.2))
  read e s :=
    let data := if s.1 = 0x0B ∧ 10 ≤ s.2 then [15, 15, 4, 0, 4, 0] else samplePayload s.1
    (.ret (if e then { command := s.1 + 1, data } else {}) none, s)

set_option maxRecDepth 8000 in
/-- 16.5 s for the speed. -/
example : (Sys.execs { cv := amd64, line := lazyLine } ([.arrive (.setSpeed 1 false)] ++ steps 143 (.client 0))
    (Sys.initial ({ line := (0, 0), profiles :=
          ⟨{ currentMode := 2, inAway := 15, outAway := 15 }, 0⟩ } : World (UInt8 × Nat)))).any
    (fun s => longest (actsOf (.client 0) s.sh.trace) = 16500000000) = true := by decide

end Comfo.Props
