import Verif.Props.Query
import Verif.Props.Reading
import Verif.Lemmas.Response
/-! Helper lemmas: payload decoding on explicit byte lists, set queries on the wire, and getters
on a well-formed reply. -/
namespace Comfo
open Spec

theorem list9 {l : List UInt8} (h : l.length = 9) :
    ∃ a b c d e f g i j, l = [a, b, c, d, e, f, g, i, j] := by
  match l, h with
  | [a, b, c, d, e, f, g, i, j], _ => exact ⟨a, b, c, d, e, f, g, i, j, rfl⟩

theorem list6 {l : List UInt8} (h : l.length = 6) : ∃ a b c d e f, l = [a, b, c, d, e, f] := by
  match l, h with
  | [a, b, c, d, e, f], _ => exact ⟨a, b, c, d, e, f, rfl⟩

theorem list7 {l : List UInt8} (h : l.length = 7) : ∃ a b c d e f g, l = [a, b, c, d, e, f, g] := by
  match l, h with
  | [a, b, c, d, e, f, g], _ => exact ⟨a, b, c, d, e, f, g, rfl⟩

theorem list14 {l : List UInt8} (h : l.length = 14) :
    ∃ a b c d e f g i j k m n o p, l = [a, b, c, d, e, f, g, i, j, k, m, n, o, p] := by
  match l, h with
  | [a, b, c, d, e, f, g, i, j, k, m, n, o, p], _ =>
    exact ⟨a, b, c, d, e, f, g, i, j, k, m, n, o, p, rfl⟩

theorem list20 {l : List UInt8} (h : l.length = 20) :
    ∃ a b c d e f g i j k m n o p q r s t u v,
      l = [a, b, c, d, e, f, g, i, j, k, m, n, o, p, q, r, s, t, u, v] := by
  match l, h with
  | [a, b, c, d, e, f, g, i, j, k, m, n, o, p, q, r, s, t, u, v], _ =>
    exact ⟨a, b, c, d, e, f, g, i, j, k, m, n, o, p, q, r, s, t, u, v, rfl⟩

theorem list13 {l : List UInt8} (h : l.length = 13) :
    ∃ a b c name, l = a :: b :: c :: name ∧ name.length = 10 := by
  match l, h with
  | a :: b :: c :: name, h => exact ⟨a, b, c, name, rfl, by simpa using h⟩

theorem temps_bad {l : List UInt8} (h : l.length ≠ 9) :
    Temps.unmarshalBinary l = .ret {} (some .pktLen) := by
  unfold Temps.unmarshalBinary; rw [if_pos h]
theorem fans_bad {l : List UInt8} (h : l.length ≠ 6) :
    Fans.unmarshalBinary l = .ret {} (some .pktLen) := by
  unfold Fans.unmarshalBinary; rw [if_pos h]
theorem bypass_bad {l : List UInt8} (h : l.length ≠ 7) :
    Bypass.unmarshalBinary l = .ret {} (some .pktLen) := by
  unfold Bypass.unmarshalBinary; rw [if_pos h]
theorem profiles_bad {l : List UInt8} (h : l.length ≠ 14) :
    FanProfiles.unmarshalBinary l = .ret {} (some .pktLen) := by
  unfold FanProfiles.unmarshalBinary; rw [if_pos h]
theorem hours_bad {l : List UInt8} (h : l.length ≠ 20) :
    Hours.unmarshalBinary l = .ret {} (some .pktLen) := by
  unfold Hours.unmarshalBinary; rw [if_pos h]
theorem bootInfo_bad {l : List UInt8} (h : l.length ≠ 13) :
    BootInfo.unmarshalBinary l = .ret {} (some .pktLen) := by
  unfold BootInfo.unmarshalBinary; rw [if_pos h]
theorem errors_bad {l : List UInt8} (h : l.length ≠ 17) :
    Errors.unmarshalBinary l = .ret {} (some .pktLen) := by
  unfold Errors.unmarshalBinary; rw [if_pos h]

theorem profiles_list (a b c d e f g i j k m n o p : UInt8) :
    FanProfiles.unmarshalBinary [a, b, c, d, e, f, g, i, j, k, m, n, o, p] =
      .ret { outAway := a, outLow := b, outMid := c, inAway := d, inLow := e, inMid := f,
             currentOut := g, currentIn := i, currentMode := j, inFanActive := k == 1,
             outHigh := m, inHigh := n } none := rfl

theorem hours_list (a b c d e f g i j k m n o p q r s t u v : UInt8) :
    ∃ h, Hours.unmarshalBinary [a, b, c, d, e, f, g, i, j, k, m, n, o, p, q, r, s, t, u, v] =
        .ret h none ∧
      h.fanAway.toNat = (a.toNat * 256 + b.toNat) * 256 + c.toNat ∧
      h.fanLow.toNat = (d.toNat * 256 + e.toNat) * 256 + f.toNat ∧
      h.fanMid.toNat = (g.toNat * 256 + i.toNat) * 256 + j.toNat ∧
      h.frostProtect.toNat = k.toNat * 256 + m.toNat ∧
      h.reheating.toNat = n.toNat * 256 + o.toNat ∧
      h.bypassOpen.toNat = p.toNat * 256 + q.toNat ∧
      h.filter.toNat = r.toNat * 256 + s.toNat ∧
      h.fanHigh.toNat = (t.toNat * 256 + u.toNat) * 256 + v.toNat := by
  obtain ⟨w1, h1, e1⟩ := beUint32_triple a b c
  obtain ⟨w2, h2, e2⟩ := beUint32_triple d e f
  obtain ⟨w3, h3, e3⟩ := beUint32_triple g i j
  obtain ⟨w4, h4, e4⟩ := beUint16_pair k m
  obtain ⟨w5, h5, e5⟩ := beUint16_pair n o
  obtain ⟨w6, h6, e6⟩ := beUint16_pair p q
  obtain ⟨w7, h7, e7⟩ := beUint16_pair r s
  obtain ⟨w8, h8, e8⟩ := beUint32_triple t u v
  refine ⟨⟨w1, w2, w3, w8, w4, w5, w6, w7⟩, ?_, e1, e2, e3, e4, e5, e6, e7, e8⟩
  unfold Hours.unmarshalBinary
  simp [slice, leftPad32, h1, h2, h3, h4, h5, h6, h7, h8, Go.ofOption]

theorem fans_list (a b c d e f : UInt8) :
    (c.toNat * 256 + d.toNat = 0 ∨ e.toNat * 256 + f.toNat = 0 →
      Fans.unmarshalBinary [a, b, c, d, e, f] = .ret {} (some .zeroValue)) ∧
    (c.toNat * 256 + d.toNat ≠ 0 → e.toNat * 256 + f.toNat ≠ 0 →
      ∃ v, Fans.unmarshalBinary [a, b, c, d, e, f] = .ret v none ∧
        v.inPercent = a ∧ v.outPercent = b ∧
        v.inSpeed.toNat = 1875000 / (c.toNat * 256 + d.toNat) % 65536 ∧
        v.outSpeed.toNat = 1875000 / (e.toNat * 256 + f.toNat) % 65536) := by
  obtain ⟨w1, h1, e1⟩ := beUint16_pair c d
  obtain ⟨w2, h2, e2⟩ := beUint16_pair e f
  have z : ∀ w : UInt16, w = 0 ↔ w.toNat = 0 := by
    intro w
    constructor
    · rintro rfl; rfl
    · intro h; exact UInt16.toNat.inj h
  have lt1 := w1.toNat_lt
  have lt2 := w2.toNat_lt
  rw [← e1, ← e2]
  constructor
  · intro h
    rw [← z, ← z] at h
    unfold Fans.unmarshalBinary
    simp [slice, h1, h2]
    intro a b; rcases h with h | h
    · exact absurd h a
    · exact absurd h b
  · intro hz1 hz2
    have n1 : w1.toUInt32 ≠ 0 := by
      intro h
      have := congrArg UInt32.toNat h
      simp at this; exact hz1 (by rw [this])
    have n2 : w2.toUInt32 ≠ 0 := by
      intro h
      have := congrArg UInt32.toNat h
      simp at this; exact hz2 (by rw [this])
    refine ⟨⟨a, b, (1875000 / w1.toUInt32).toUInt16, (1875000 / w2.toUInt32).toUInt16⟩, ?_,
      rfl, rfl, ?_, ?_⟩
    · have m1 : ¬ w1 = 0 := fun h => hz1 ((z w1).1 h)
      have m2 : ¬ w2 = 0 := fun h => hz2 ((z w2).1 h)
      unfold Fans.unmarshalBinary
      simp [slice, h1, h2, m1, m2, div32, n1, n2, Go.ofOption]
    · simp [UInt32.toNat_toUInt16, UInt32.toNat_div]
    · simp [UInt32.toNat_toUInt16, UInt32.toNat_div]

/-- Encoding of a set request. -/
theorem setQuery_eq {s : SetRequest} {bin : List UInt8} (h : s.marshalBinary = (bin, none))
    (c : Conn) : setQuery s c =
      match queryPacket { command := s.requestType, data := bin } c with
      | (.panic, c) => (.panic, c)
      | (.ret _ e, c) => (.ret () e, c) := by
  unfold setQuery encodeSetRequest
  have : s.requestType ≠ 0 := by cases s <;> simp [SetRequest.requestType]
  simp only [this, if_false, h]
  rfl

theorem setQuery_err {s : SetRequest} {bin : List UInt8} {e : Err}
    (h : s.marshalBinary = (bin, some e)) (c : Conn) : setQuery s c = (.ret () (some e), c) := by
  unfold setQuery encodeSetRequest
  have : s.requestType ≠ 0 := by cases s <;> simp [SetRequest.requestType]
  simp only [this, if_false, h]

/-- What a set query puts on the wire. -/
theorem setQuery_wire {s : SetRequest} {bin : List UInt8} (h : s.marshalBinary = (bin, none))
    (hl : bin.length ≤ 255) (c : Conn) :
    (∃ a b, (setQuery s c).2.sent = c.sent ++ a ++ b ∧ a <+: frame s.requestType bin ∧ b <+: ack) ∧
    (∀ c', setQuery s c = (.ret () none, c') → Props.HonestWriter c →
      c'.sent = c.sent ++ frame s.requestType bin ++ ack) ∧
    (setQuery s c).1 ≠ .panic := by
  rw [setQuery_eq h]
  obtain ⟨-, h2, h3⟩ := Props.C15_wire_output { command := s.requestType, data := bin } c
  have hp := queryPacket_ne_panic { command := s.requestType, data := bin } c
  obtain ⟨a, b, hs, ha, hb, -⟩ := h2 hl
  match hq : queryPacket { command := s.requestType, data := bin } c with
  | (.panic, _) => rw [hq] at hp; simp at hp
  | (.ret q e, c') =>
    rw [hq] at hs
    refine ⟨⟨a, b, hs, ha, hb⟩, ?_, by simp⟩
    intro c'' h hw
    simp at h
    obtain ⟨rfl, rfl⟩ := h
    obtain ⟨a, h1, -, h2⟩ := h3 q c' hq
    rw [h1, h2 hw]

/-- A getter on a complete reply that has no delimiter inside. -/
theorem getQuery_reply (gr : GetRequest) (pl trailing : List UInt8) (hp : pl.length ≤ 255)
    (c : Conn) (hne : NoEmptyReads c.rd) (hl : ∀ b ∈ c.late, b = false) (hw : c.wr = [])
    (hd : delivered c.rd = ack ++ frame (gr.code + 1) pl ++ trailing)
    (hnd : NoDelim ((gr.code + 1) :: UInt8.ofNat pl.length :: (pl ++ [checksum (gr.code + 1) pl]))) :
    (getQuery gr c).1 = decodeResponse { command := gr.code + 1, data := pl } := by
  have hr := (Props.C09_receivable_partial { command := gr.code + 1, data := pl } hp c trailing
    hne hl hd).2 hnd
  unfold getQuery
  obtain ⟨n, hn, hok, hf, hq⟩ := queryPacket_phases (encodeGetRequest gr) c (by
    simp [encodeGetRequest])
  obtain ⟨q, e, c2, hrd, hs, hw2, a, b, d⟩ := hq (by rw [hw]; simp)
  have hrd' := congrArg Prod.fst hrd
  rw [readPacket_indep (c.wrote _) c _ rfl rfl] at hrd'
  have he : (encodeGetRequest gr).expect = true := rfl
  rw [he, hr] at hrd'
  simp at hrd'
  obtain ⟨rfl, rfl⟩ := hrd'
  have hack : (writeAck c2).1.2 = none := by
    obtain ⟨e, m, ha, -, -, -, h1, -⟩ := writeAck_spec c2
    rw [ha]
    exact h1 (.inl (by rw [hw2, hw]; rfl))
  rw [d rfl (fun _ => rfl), hack]

end Comfo
