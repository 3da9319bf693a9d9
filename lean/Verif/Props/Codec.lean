import Verif.Lemmas.Proto
/-!
# Properties C01–C06: the packet codec

Statements use `marshalPacket` / `unmarshalPacket` (the functions under study) and
`Spec.*` from `Verif/Spec/Wire.lean`.
-/
namespace Comfo.Props

/-- **C01** Round trip: decoding what was encoded gives the same command and payload
(`Expect` is not on the wire). -/
theorem C01_roundtrip (p : Packet) (h : p.data.length ≤ 255) :
    ∃ wire, marshalPacket p = (wire, none) ∧
      unmarshalPacket wire = .ret { command := p.command, data := p.data } none := by
  refine ⟨_, marshal_ok p h, ?_⟩
  unfold Spec.body
  rw [unmarshal_parts, ← escapeData_eq_doubled, unescape_escape, toNat_ofNat_of_le h,
    calculateChecksum_eq_spec]
  simp

/-- Non-vacuity of C01: a payload mixing 07 runs, unescaped neighbours and the maximum size. -/
example : ∃ p : Packet, p.data.length = 255 ∧ 7 ∈ p.data ∧ p.data.length ≤ 255 :=
  ⟨{ command := 7, data := List.replicate 255 7 }, by rw [List.length_replicate],
    List.mem_replicate.2 ⟨by decide, rfl⟩, by rw [List.length_replicate]; decide⟩

/-- **C02** The size limit: success iff at most 255 bytes; otherwise the too-long error and no
bytes. -/
theorem C02_size_limit (p : Packet) :
    ((marshalPacket p).2 = none ↔ p.data.length ≤ 255) ∧
    (255 < p.data.length → marshalPacket p = ([], some .tooLong)) := by
  refine ⟨⟨fun h => ?_, fun h => by rw [marshal_ok p h]⟩, marshal_long p⟩
  by_cases h' : 255 < p.data.length
  · rw [marshal_long p h'] at h; simp at h
  · omega

example : ∃ p : Packet, 255 < p.data.length := 
  ⟨{ data := List.replicate 256 0 }, by rw [List.length_replicate]; decide⟩

/-- **C03** Exact wire format and length of a frame body. -/
theorem C03_wire_format (p : Packet) (h : p.data.length ≤ 255) :
    ∃ wire, marshalPacket p = (wire, none) ∧
      wire = [0, p.command, UInt8.ofNat p.data.length]
        ++ (p.data.flatMap fun b => if b = 7 then [7, 7] else [b])
        ++ [UInt8.ofNat ((p.command.toNat + p.data.length
              + (p.data.map UInt8.toNat).sum + 173) % 256)] ∧
      wire.length = 4 + p.data.length + p.data.count 7 ∧
      wire[2]?.map UInt8.toNat = some p.data.length := by
  refine ⟨_, marshal_ok p h, ?_, ?_, ?_⟩
  · simp [Spec.body, Spec.doubled, Spec.checksum, Spec.byteSum]
  · simp [Spec.body, length_doubled]; omega
  · simp [Spec.body]; omega

/-- **C04** `UnmarshalPacket` never panics, succeeds exactly on consistent input, and returns
the zero packet with every error. `Spec.Unescapes` describes the payload a receiver reads. -/
theorem C04_total_and_strict (w : List UInt8) :
    unmarshalPacket w ≠ .panic ∧
    (∀ cmd data, unmarshalPacket w = .ret { command := cmd, data := data } none ↔
      ∃ z len raw ck, w = [z, cmd, len] ++ raw ++ [ck] ∧ Spec.Unescapes raw data ∧
        len.toNat = data.length ∧ ck = Spec.checksum cmd data) ∧
    (∀ p, unmarshalPacket w = .ret p none → p.expect = false) ∧
    (∀ p e, unmarshalPacket w = .ret p (some e) →
      p = {} ∧ (e = .pktLen ↔ w.length < 4) ∧
      (e = .pktLen ∨ e = .payloadSize ∨ e = .verifyChecksum)) := by
  refine ⟨unmarshal_ne_panic w, ?_, ?_, ?_⟩
  · intro cmd data
    by_cases hs : w.length < 4
    · rw [unmarshal_short hs]
      constructor
      · simp
      · rintro ⟨z, len, raw, ck, rfl, -⟩; simp at hs; omega
    · obtain ⟨z, cmd', len, raw, ck, rfl⟩ := parts_of_length (w := w) (by omega)
      rw [unmarshal_parts]
      constructor
      · intro h
        split at h
        · simp at h
        · next hl =>
          split at h
          · simp at h
          · next hc =>
            simp at h hl hc
            obtain ⟨rfl, hd⟩ := h
            refine ⟨z, len, raw, ck, by simp, (unescape_iff _ _).1 hd, by rw [hl, hd], ?_⟩
            rw [hc, hd]
            rw [← calculateChecksum_eq_spec]
            congr
            rw [← hd, ← hl]; simp
      · rintro ⟨z', len', raw', ck', hw, hu, hl, hc⟩
        simp at hw
        obtain ⟨rfl, rfl, rfl, hw⟩ := hw
        obtain ⟨rfl, rfl⟩ := hw
        have hu := (unescape_iff _ _).2 hu
        rw [hu, hc, ← calculateChecksum_eq_spec, ← hl]
        simp
  · intro p
    by_cases hs : w.length < 4
    · rw [unmarshal_short hs]; simp
    · obtain ⟨z, cmd', len, raw, ck, rfl⟩ := parts_of_length (w := w) (by omega)
      rw [unmarshal_parts]
      split
      · simp
      · split
        · simp
        · intro h; simp at h; subst h; rfl
  · intro p e
    by_cases hs : w.length < 4
    · rw [unmarshal_short hs]; intro h; simp at h; obtain ⟨rfl, rfl⟩ := h; simp [hs]
    · obtain ⟨z, cmd', len, raw, ck, rfl⟩ := parts_of_length (w := w) (by omega)
      rw [unmarshal_parts]
      split
      · intro h; simp at h; obtain ⟨rfl, rfl⟩ := h; simp at hs ⊢
      · split
        · intro h; simp at h; obtain ⟨rfl, rfl⟩ := h; simp at hs ⊢
        · simp

/-- Non-vacuity of C04: a frame that is accepted although it has a stray escape and a non-zero
first byte, and one rejected. -/
example : unmarshalPacket [0x12, 0x0C, 1, 7, 0x41, 0xFB] =
    .ret { command := 0x0C, data := [0x41] } none := by decide
example : unmarshalPacket [0, 0, 0xFF, 0] = .ret {} (some .payloadSize) := by decide

/-- **C05** Any single corrupted byte (other than the ignored first one) is detected; the first
byte is ignored. -/
theorem C05_single_byte_corruption (p : Packet) (wire : List UInt8)
    (hm : marshalPacket p = (wire, none))
    (i : Nat) (y : UInt8) (hi : i < wire.length) (hy : wire[i] ≠ y) :
    (i ≠ 0 → ∃ e, unmarshalPacket (wire.set i y) = .ret {} (some e)) ∧
    (i = 0 → unmarshalPacket (wire.set i y) =
      .ret { command := p.command, data := p.data } none) := by
  have h : p.data.length ≤ 255 := (C02_size_limit p).1.1 (by rw [hm])
  rw [marshal_ok p h] at hm
  simp at hm
  subst hm
  refine ⟨?_, ?_⟩
  · intro hi0
    have hck : ∀ (a b : UInt8) (n : Nat), a ≠ b →
        (a.toNat + n) % 256 ≠ (b.toNat + n) % 256 := by
      intro a b n hab heq
      apply hab; apply UInt8.toNat.inj
      have := a.toNat_lt; have := b.toNat_lt; omega
    unfold Spec.body at hi hy ⊢
    match i with
    | 1 =>
      simp at hy
      simp only [List.set_cons_succ, List.set_cons_zero, unmarshal_parts]
      rw [← escapeData_eq_doubled, unescape_escape, toNat_ofNat_of_le h,
        ← calculateChecksum_eq_spec]
      have : calculateChecksum p.command (UInt8.ofNat p.data.length) p.data ≠
          calculateChecksum y (UInt8.ofNat p.data.length) p.data := by
        intro he
        have he := congrArg UInt8.toNat he
        rw [calculateChecksum_toNat, calculateChecksum_toNat] at he
        have := p.command.toNat_lt; have := y.toNat_lt
        apply hy; apply UInt8.toNat.inj; omega
      simp [this]
    | 2 =>
      simp at hy
      simp only [List.set_cons_succ, List.set_cons_zero, unmarshal_parts]
      rw [← escapeData_eq_doubled, unescape_escape]
      have : y.toNat ≠ p.data.length := by
        intro he; apply hy; rw [← he]; simp
      simp [this]
    | i + 3 =>
      simp only [List.set_cons_succ]
      simp only [List.length_cons, List.length_append, List.length_nil] at hi
      simp only [List.getElem_cons_succ] at hy
      by_cases hlt : i < (Spec.doubled p.data).length
      · rw [List.set_append_left _ _ hlt]
        rw [List.getElem_append_left hlt] at hy
        rw [unmarshal_parts]
        simp only [← escapeData_eq_doubled] at hlt hy ⊢
        rcases corrupt_escaped p.data i y hlt hy with hl | hs
        · rw [toNat_ofNat_of_le h]
          have : p.data.length ≠ (unescapeData ((escapeData p.data).set i y)).length :=
            Ne.symm hl
          simp [this]
        · split
          · exact ⟨_, rfl⟩
          · have : Spec.checksum p.command p.data ≠ calculateChecksum p.command
                (UInt8.ofNat p.data.length)
                (unescapeData ((escapeData p.data).set i y)) := by
              rw [← calculateChecksum_eq_spec]
              intro he
              have he := congrArg UInt8.toNat he
              rw [calculateChecksum_toNat, calculateChecksum_toNat] at he
              omega
            simp [this]
      · have hieq : i = (Spec.doubled p.data).length := by omega
        subst hieq
        rw [List.set_append_right _ _ (Nat.le_refl _)]
        simp at hy
        simp only [Nat.sub_self, List.set_cons_zero, unmarshal_parts]
        rw [← escapeData_eq_doubled, unescape_escape, calculateChecksum_eq_spec,
          toNat_ofNat_of_le h]
        have := Ne.symm hy
        simp [this]
  · intro hi0; subst hi0
    unfold Spec.body
    simp only [List.set_cons_zero]
    rw [unmarshal_parts, ← escapeData_eq_doubled, unescape_escape, toNat_ofNat_of_le h,
      calculateChecksum_eq_spec]
    simp

/-- Non-vacuity of C05. -/
example : 5 < (Spec.body 0x0C [1, 7, 7, 2]).length ∧ (Spec.body 0x0C [1, 7, 7, 2])[5]? = some 7 := by
  decide

/-- **C06** (a) unambiguous: if the frame body of one packet is a prefix of (anything starting
with) the frame body of another, the packets agree and so do the rests; witnessed by the
reference length-directed receiver `Spec.parseBody`.
(b) canonical: re-encoding an accepted frame gives the same bytes when the first byte is 0 and
the escapes are paired. -/
theorem C06_unique_decoding :
    (∀ (p : Packet) (rest : List UInt8), p.data.length ≤ 255 →
      Spec.parseBody ((marshalPacket p).1 ++ rest) = some ((p.command, p.data), rest)) ∧
    (∀ (p q : Packet) (x y : List UInt8), p.data.length ≤ 255 → q.data.length ≤ 255 →
      (marshalPacket p).1 ++ x = (marshalPacket q).1 ++ y →
      p.command = q.command ∧ p.data = q.data ∧ x = y) ∧
    (∀ (cmd len ck : UInt8) (raw : List UInt8) (p : Packet), Spec.Paired raw →
      unmarshalPacket ([0, cmd, len] ++ raw ++ [ck]) = .ret p none →
      marshalPacket p = ([0, cmd, len] ++ raw ++ [ck], none)) := by
  have h1 : ∀ (p : Packet) (rest : List UInt8), p.data.length ≤ 255 →
      Spec.parseBody ((marshalPacket p).1 ++ rest) = some ((p.command, p.data), rest) := by
    intro p rest h
    rw [marshal_ok p h]
    have := takePayload_doubled p.data (Spec.checksum p.command p.data :: ([] ++ rest))
    simp only [Spec.body, List.cons_append, List.append_assoc, Spec.parseBody]
    rw [toNat_ofNat_of_le h, this]
    simp
  refine ⟨h1, ?_, ?_⟩
  · intro p q x y hp hq he
    have a := h1 p x hp
    rw [he, h1 q y hq] at a
    simp at a
    obtain ⟨⟨a, b⟩, c⟩ := a
    exact ⟨a.symm, b.symm, c.symm⟩
  · intro cmd len ck raw p hpair hu
    have e : ([0, cmd, len] ++ raw ++ [ck] : List UInt8) = 0 :: cmd :: len :: (raw ++ [ck]) := by
      simp
    rw [e] at hu ⊢
    rw [unmarshal_parts] at hu
    split at hu
    · simp at hu
    · next hl =>
      split at hu
      · simp at hu
      · next hc =>
        simp at hu hl hc
        subst hu
        have hlen : (unescapeData raw).length ≤ 255 := by
          rw [← hl]; have := len.toNat_lt; omega
        have hl' : UInt8.ofNat (unescapeData raw).length = len := by rw [← hl]; simp
        rw [marshal_ok _ hlen]
        simp only [Spec.body]
        rw [← escapeData_eq_doubled, escape_unescape_of_paired hpair,
          ← calculateChecksum_eq_spec, hl', ← hc]

/-- Non-vacuity of C06(b): an accepted, properly escaped frame. -/
example : Spec.Paired [7, 7, 1, 2] ∧
    unmarshalPacket ([0, 0xAB, 3] ++ [7, 7, 1, 2] ++ [0x65]) =
      .ret { command := 0xAB, data := [7, 1, 2] } none :=
  ⟨.pair (.plain (by decide) (.plain (by decide) .nil)), by decide⟩

end Comfo.Props
