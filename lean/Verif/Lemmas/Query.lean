import Verif.Lemmas.Frame
import Verif.Model.Api
/-! Helper lemmas about writing, `queryPacket`, `setQuery`, `getQuery` and the getters. -/
namespace Comfo
open Spec

theorem frame_eq (p : Packet) :
    pktStart ++ body p.command p.data ++ pktEnd = frame p.command p.data := rfl

/-- The connection after one write of which `bs` was accepted. -/
def Conn.wrote (c : Conn) (bs : List UInt8) : Conn :=
  { c with wr := c.wr.tail, sent := c.sent ++ bs }

/-- `Conn.write` spelled out. -/
theorem write_spec (c : Conn) (bs : List UInt8) :
    ∃ n e, c.write bs = ((n, e), c.wrote (bs.take n)) ∧
       n ≤ bs.length ∧ (∀ err, e = some err → err = .io) ∧
      (e = none ↔ ∀ k, c.wr.head? ≠ some (.fail k)) ∧
      (c.wr.head? = none ∨ c.wr.head? = some .ok → n = bs.length) ∧
      (∀ k, c.wr.head? = some (.short k) → n = min k bs.length) ∧
      (∀ k, c.wr.head? = some (.fail k) → n = min k bs.length) := by
  unfold Conn.write Conn.wrote
  match h : c.wr with
  | [] => refine ⟨bs.length, none, by simp, ?_⟩; simp
  | .ok :: w => refine ⟨bs.length, none, by simp, ?_⟩; simp
  | .short n :: w =>
    refine ⟨(bs.take n).length, none, ?_, ?_⟩
    · simp
    · simp [List.length_take, Nat.min_le_right]
  | .fail n :: w =>
    refine ⟨(bs.take n).length, some .io, ?_, ?_⟩
    · simp
    · simp [List.length_take, Nat.min_le_right]

/-- `writePacket` spelled out. -/
theorem writePacket_spec (p : Packet) (c : Conn) :
    (255 < p.data.length → writePacket p c = ((false, some .tooLong), c)) ∧
    (p.data.length ≤ 255 → ∃ ok e n, writePacket p c = ((ok, e),
        (c.wrote ((frame p.command p.data).take n))) ∧
      n ≤ (frame p.command p.data).length ∧ (∀ err, e = some err → err = .io) ∧
      (e = none ↔ ∀ k, c.wr.head? ≠ some (.fail k)) ∧
      (c.wr.head? = none ∨ c.wr.head? = some .ok → n = (frame p.command p.data).length) ∧
      (∀ k, c.wr.head? = some (.short k) → n = min k (frame p.command p.data).length) ∧
      (∀ k, c.wr.head? = some (.fail k) → n = min k (frame p.command p.data).length)) := by
  constructor
  · intro h; unfold writePacket; rw [marshal_long p h]
  · intro h
    unfold writePacket
    rw [marshal_ok p h]
    simp only [frame_eq]
    obtain ⟨n, e, hw, rest⟩ := write_spec c (frame p.command p.data)
    rw [hw]
    cases e with
    | none => exact ⟨true, none, n, rfl, rest⟩
    | some e => exact ⟨false, some e, n, rfl, rest⟩

/-- `writeAck` spelled out. -/
theorem writeAck_spec (c : Conn) :
    ∃ e n, writeAck c = ((false, e), c.wrote (ack.take n)) ∧
      n ≤ 2 ∧ (∀ err, e = some err → err = .io ∨ err = .ack) ∧ (e = none → n = 2) ∧
      (c.wr.head? = none ∨ c.wr.head? = some .ok → e = none) ∧
      (∀ k, c.wr.head? = some (.fail k) → e = some .io ∧ n = min k 2) ∧
      (∀ k, c.wr.head? = some (.short k) → n = min k 2 ∧ (k < 2 → e = some .ack)) := by
  unfold writeAck
  obtain ⟨n, e, hw, hn, he, hnone, hok, hshort, hfail⟩ := write_spec c pktAck
  rw [hw]
  cases e with
  | some e =>
    have := he e rfl; subst this
    refine ⟨some .io, n, rfl, hn, by simp, by simp, ?_, ?_, ?_⟩
    · intro h
      exfalso
      have h2 : ¬ ∀ k, c.wr.head? ≠ some (.fail k) := fun hx => by simpa using hnone.2 hx
      apply h2; intro k hk
      rcases h with h | h <;> rw [h] at hk <;> simp at hk
    · intro k hk; exact ⟨rfl, hfail k hk⟩
    · intro k hk
      exfalso
      have h2 : ¬ ∀ k, c.wr.head? ≠ some (.fail k) := fun hx => by simpa using hnone.2 hx
      apply h2; intro j hj; rw [hk] at hj; simp at hj
  | none =>
    have hnf := hnone.1 rfl
    by_cases h2 : n ≠ pktAck.length
    · simp only
      rw [if_pos h2]
      refine ⟨some .ack, n, rfl, hn, by simp, by simp, ?_, ?_, ?_⟩
      · intro h; exact absurd (hok h) h2
      · intro k hk; exact absurd hk (hnf k)
      · intro k hk; exact ⟨hshort k hk, fun _ => rfl⟩
    · simp only
      rw [if_neg h2]
      have h2 : n = 2 := by simpa [pktAck] using h2
      refine ⟨none, n, rfl, hn, by simp, fun _ => h2, by simp, ?_, ?_⟩
      · intro k hk; exact absurd hk (hnf k)
      · intro k hk
        have := hshort k hk
        refine ⟨this, fun hk2 => ?_⟩
        simp [pktAck] at this; omega

/-- The three phases of a query. -/
theorem queryPacket_phases (p : Packet) (c : Conn) (h : p.data.length ≤ 255) :
    ∃ n, n ≤ (frame p.command p.data).length ∧
      (c.wr.head? = none ∨ c.wr.head? = some .ok → n = (frame p.command p.data).length) ∧
      (∀ k, c.wr.head? = some (.fail k) → n = min k (frame p.command p.data).length ∧
        queryPacket p c = (.ret {} (some .io),
          (c.wrote ((frame p.command p.data).take n)))) ∧
      ((∀ k, c.wr.head? ≠ some (.fail k)) →
        ∃ q e c2, readPacket (c.wrote ((frame p.command p.data).take n)) p.expect = (.ret q e, c2) ∧
          c2.sent = c.sent ++ (frame p.command p.data).take n ∧ c2.wr = c.wr.tail ∧
          (∀ err, e = some err → queryPacket p c = (.ret q (some err), c2)) ∧
          (e = none → p.expect = true → q.command ≠ p.command + 1 →
            queryPacket p c = (.ret q (some .invalidResponse), c2)) ∧
          (e = none → (p.expect = true → q.command = p.command + 1) →
            queryPacket p c = (.ret q (writeAck c2).1.2, (writeAck c2).2))) := by
  obtain ⟨ok, e, n, hw, hn, he, hnone, hok, hshort, hfail⟩ := (writePacket_spec p c).2 h
  refine ⟨n, hn, hok, ?_, ?_⟩
  · intro k hk
    refine ⟨hfail k hk, ?_⟩
    cases e with
    | none => exact absurd hk (hnone.1 rfl k)
    | some e =>
      have := he e rfl; subst this
      unfold queryPacket; rw [hw]
  · intro hk
    have := hnone.2 hk; subst this
    generalize hc1 : (c.wrote ((frame p.command p.data).take n)) = c1 at hw
    have hs := readPacket_sent c1 p.expect
    have hp := readPacket_ne_panic c1 p.expect
    match hr : readPacket c1 p.expect, hp with
    | (.ret q e, c2), _ =>
      rw [hr] at hs
      subst hc1
      refine ⟨q, e, c2, rfl, hs.1, hs.2, ?_, ?_, ?_⟩
      · intro err herr; subst herr
        unfold queryPacket; rw [hw]; simp only; rw [hr]
      · intro hen hex hcmd; subst hen
        unfold queryPacket; rw [hw]; simp only; rw [hr]; simp [hex, hcmd]
      · intro hen hcmd; subst hen
        unfold queryPacket; rw [hw]; simp only; rw [hr]
        have : ¬ (p.expect = true ∧ q.command ≠ p.command + 1) := by
          rintro ⟨h1, h2⟩; exact h2 (hcmd h1)
        simp only [this, if_false]

theorem queryPacket_ne_panic (p : Packet) (c : Conn) : (queryPacket p c).1 ≠ .panic := by
  by_cases h : p.data.length ≤ 255
  · obtain ⟨n, -, -, hf, hr⟩ := queryPacket_phases p c h
    by_cases hk : ∃ k, c.wr.head? = some (.fail k)
    · obtain ⟨k, hk⟩ := hk
      rw [(hf k hk).2]; simp
    · obtain ⟨q, e, c2, -, -, -, a, b, d⟩ := hr (fun k hk' => hk ⟨k, hk'⟩)
      cases e with
      | some e => rw [a e rfl]; simp
      | none =>
        by_cases hc : p.expect = true → q.command = p.command + 1
        · rw [d rfl hc]; simp
        · by_cases he : p.expect = true
          · rw [b rfl he (fun h => hc (fun _ => h))]; simp
          · exact absurd (fun h => absurd h he) hc
  · unfold queryPacket
    rw [(writePacket_spec p c).1 (by omega)]; simp

/-- What success of a query means. -/
theorem queryPacket_ok {p : Packet} {c c' : Conn} {q : Packet}
    (h : queryPacket p c = (.ret q none, c')) :
    p.data.length ≤ 255 ∧ (∀ k, c.wr.head? ≠ some (.fail k)) ∧
    (p.expect = true → q.command = p.command + 1) ∧
    ∃ n c2, n ≤ (frame p.command p.data).length ∧
      (c.wr.head? = none ∨ c.wr.head? = some .ok → n = (frame p.command p.data).length) ∧
      readPacket (c.wrote ((frame p.command p.data).take n))
        p.expect = (.ret q none, c2) ∧
      (writeAck c2).1.2 = none ∧
      c' = c2.wrote ack := by
  by_cases hl : p.data.length ≤ 255
  · obtain ⟨n, hn, hok, hf, hr⟩ := queryPacket_phases p c hl
    by_cases hk : ∃ k, c.wr.head? = some (.fail k)
    · obtain ⟨k, hk⟩ := hk
      rw [(hf k hk).2] at h; simp at h
    · have hk' : ∀ k, c.wr.head? ≠ some (.fail k) := fun k hk' => hk ⟨k, hk'⟩
      obtain ⟨q', e, c2, hrd, hs, hw, a, b, d⟩ := hr hk'
      cases e with
      | some e => rw [a e rfl] at h; simp at h
      | none =>
        by_cases hc : p.expect = true → q'.command = p.command + 1
        · rw [d rfl hc] at h
          simp at h
          obtain ⟨⟨rfl, h1⟩, h2⟩ := h
          refine ⟨hl, hk', hc, n, c2, hn, hok, hrd, h1, ?_⟩
          obtain ⟨e, m, ha, -, -, hm, -⟩ := writeAck_spec c2
          rw [ha] at h1 h2
          simp at h1
          rw [hm h1] at h2
          rw [← h2]
          simp [ack]
        · by_cases he : p.expect = true
          · rw [b rfl he (fun h => hc (fun _ => h))] at h; simp at h
          · exact absurd (fun h => absurd h he) hc
  · unfold queryPacket at h
    rw [(writePacket_spec p c).1 (by omega)] at h; simp at h

theorem scanTimeout_indep (s : Scanner) (c1 c2 : Conn) (hr : c1.rd = c2.rd)
    (hl : c1.late = c2.late) :
    ∃ (r : Option (List UInt8 × Option Err)), ∃ s' rd' l', scanTimeout s c1 = r.map (fun x => (x, s', { c1 with rd := rd', late := l' })) ∧
      scanTimeout s c2 = r.map (fun x => (x, s', { c2 with rd := rd', late := l' })) := by
  unfold scanTimeout
  rw [hr, hl]
  match scan s c2.rd with
  | .diverged => exact ⟨none, s, [], [], rfl, rfl⟩
  | .blocked rest => exact ⟨some _, s, rest, c2.late.tail, rfl, rfl⟩
  | .done token s' rest =>
    simp only
    cases (waitTimeout (some token.isSome) (c2.late.headD false)).2 with
    | some e => exact ⟨some _, s', rest, c2.late.tail, rfl, rfl⟩
    | none => exact ⟨some _, s', rest, c2.late.tail, rfl, rfl⟩

/-- Reading does not depend on the write side. -/
theorem readPacket_indep (c1 c2 : Conn) (e : Bool) (hr : c1.rd = c2.rd)
    (hl : c1.late = c2.late) : (readPacket c1 e).1 = (readPacket c2 e).1 := by
  unfold readPacket
  obtain ⟨r1, s1, rd1, l1, ha, hb⟩ := scanTimeout_indep {} c1 c2 hr hl
  rw [ha, hb]
  match r1 with
  | none => rfl
  | some (_, some e1) => rfl
  | some (pr, none) =>
    simp only [Option.map_some]
    by_cases hp1 : pr.length ≠ 0
    · rw [if_pos hp1, if_pos hp1]
    · rw [if_neg hp1, if_neg hp1]
      by_cases he : (!e) = true
      · rw [if_pos he, if_pos he]
      · rw [if_neg he, if_neg he]
        obtain ⟨r2, s2, rd2, l2, ha, hb⟩ := scanTimeout_indep s1 { c1 with rd := rd1, late := l1 }
          { c2 with rd := rd1, late := l1 } rfl rfl
        rw [ha, hb]
        match r2 with
        | none => rfl
        | some (_, some e1) => rfl
        | some (pr2, none) =>
          simp only [Option.map_some]
          by_cases hp2 : pr2.length ≠ 0
          · rw [if_pos hp2, if_pos hp2]
          · rw [if_neg hp2, if_neg hp2]
            obtain ⟨r3, s3, rd3, l3, ha, hb⟩ := scanTimeout_indep s2 { c1 with rd := rd2, late := l2 }
              { c2 with rd := rd2, late := l2 } rfl rfl
            rw [ha, hb]
            match r3 with
            | none => rfl
            | some (_, some e1) => rfl
            | some (pr3, none) =>
              simp only [Option.map_some]
              split
              · rfl
              · split <;> rfl

end Comfo
