import Verif.Lemmas.Frame
/-!
# Properties C07–C12: reading a reply

`Spec.delivered` / `Spec.breaks` (`Verif/Spec/Script.lean`) describe what the connection hands
over before it stalls or fails; `Spec.Token`, `Spec.NoDelim` the delimiters in a byte string.
-/
namespace Comfo.Props
open Spec

/-- **C07** Chunking does not matter: two connections that deliver the same bytes (in non-empty
reads of any sizes) before stalling resp. failing, with the same timer outcomes, give the same
result. There is no bound on the sizes: this includes streams beyond the scanner's 64 KiB
limit. -/
theorem C07_chunk_independence (c c' : Conn) (expect : Bool)
    (h : NoEmptyReads c.rd) (h' : NoEmptyReads c'.rd)
    (hd : delivered c.rd = delivered c'.rd) (hb : breaks c.rd = breaks c'.rd)
    (hl : c.late = c'.late) :
    (readPacket c expect).1 = (readPacket c' expect).1 := by
  rw [readPacket_ref h, readPacket_ref h', hd, hb, hl]

/-- Non-vacuity of C07: a reply in one piece and split inside both delimiters. -/
example :
    let one : Conn := { rd := [.data (ack ++ frame 0x0C [1, 2])] }
    let many : Conn := { rd := [.data [7], .data [0xF3, 7], .data [0xF0, 0], .data [0x0C, 2, 1],
      .data [2, 0xBE, 7], .data [0x0F]] }
    NoEmptyReads one.rd ∧ NoEmptyReads many.rd ∧ delivered one.rd = delivered many.rd ∧
      breaks one.rd = breaks many.rd ∧
      (readPacket many true).1 = .ret { command := 0x0C, data := [1, 2] } none := by decide

/-- **C08** A well-formed reply is never misread. First part: every chunking, timer outcome and
trailing data, cut off by a stall anywhere, or by a failure after the frame. Second part: for
every script at all (also failing in the middle of the frame, or with empty reads) the only
other packet that can come back without an error is the empty one. -/
theorem C08_never_misread (p : Packet) (hp : p.data.length ≤ 255) (c : Conn)
    (trailing : List UInt8)
    (hpre : delivered c.rd <+: ack ++ frame p.command p.data ++ trailing) (q : Packet)
    (h : (readPacket c true).1 = .ret q none) :
    (NoEmptyReads c.rd →
      (breaks c.rd = true → ack ++ frame p.command p.data <+: delivered c.rd) →
      q = { command := p.command, data := p.data }) ∧
    (q = { command := p.command, data := p.data } ∨ q = {}) := by
  have shape : ack ++ frame p.command p.data ++ trailing =
      7 :: 0xF3 :: 7 :: 0xF0 :: (body p.command p.data ++ 7 :: 0x0F :: trailing) := by
    simp [ack, frame]
  rw [shape] at hpre
  have hbl := length_body_le (cmd := p.command) hp
  have second : q = { command := p.command, data := p.data } ∨ q = {} := by
    rcases readPacket_sound (c := c) (c' := (readPacket c true).2) (q := q)
      (by rw [← h]) with hq | ⟨d1, d2, d3, tok, rest, h1, h2, h3, hn, hdel, hu⟩
    · exact .inr hq
    · left
      obtain ⟨more, hmore⟩ := hpre
      rw [hdel] at hmore
      simp at hmore
      obtain ⟨-, -, hmore⟩ := hmore
      have ht : Token (body p.command p.data ++ 7 :: 0x0F :: trailing) tok d3 (rest ++ more) :=
        ⟨hmore.symm, h3, hn⟩
      obtain ⟨-, -, hok, hbad⟩ := frame_token hp ht
      by_cases hnd : NoDelim (body p.command p.data)
      · rw [hok hnd, unmarshal_body _ _ hp] at hu
        simpa using hu.symm
      · rcases hbad hnd with hb | hb
        · rw [unmarshal_short hb] at hu; simp at hu
        · rw [hb] at hu; simp at hu
  refine ⟨fun hne hfull => ?_, second⟩
  have hlen : breaks c.rd = true → 8 + (body p.command p.data).length - 2 ≤ (delivered c.rd).length := by
    intro hb
    have := (hfull hb).length_le
    simp [ack, frame] at this; omega
  rw [readPacket_ref hne] at h
  unfold refRead at h
  rcases refStep_prefix (tok := []) (c.late.headD false) noDelim_nil (d := 0xF3) (by decide)
      (by simp) hpre (fun hb => by have := hlen hb; simp; omega) with hs | ⟨A1, hA1, hp1, hs⟩
  · rw [hs] at h; simp at h
  rw [hs] at h
  simp at h
  have hl1 : (delivered c.rd).length = A1.length + 2 := by rw [hA1]; simp
  rcases refStep_prefix (tok := []) (b := breaks c.rd) (c.late.tail.headD false) noDelim_nil
      (d := 0xF0) (by decide) (by simp) hp1
      (fun hb => by have := hlen hb; simp; omega) with hs | ⟨A2, hA2, hp2, hs⟩
  · simp at hs; rw [hs] at h; simp at h
  simp at hs
  rw [hs] at h
  simp at h
  have hl2 : A1.length = A2.length + 2 := by rw [hA2]; simp
  -- the first delimiter of what remains
  rcases noDelim_or_token (body p.command p.data ++ 7 :: 0x0F :: trailing) with hn | ⟨tok, d, rest, ht⟩
  · exact absurd (by decide) (hn (body p.command p.data) 0x0F trailing rfl)
  · obtain ⟨hne', htl, hok, hbad⟩ := frame_token hp ht
    rw [ht.1] at hp2
    rcases refStep_prefix (b := breaks c.rd) (c.late.tail.tail.headD false) ht.2.2 ht.2.1
      (by omega) hp2 (fun hb => by have := hlen hb; omega) with hs | ⟨A3, hA3, hp3, hs⟩
    · simp at hs; rw [hs] at h; simp at h
    · simp at hs
      rw [hs] at h
      simp [hne'] at h
      split at h
      · simp at h
      · next h4 =>
        by_cases hnd : NoDelim (body p.command p.data)
        · rw [hok hnd, unmarshal_body _ _ hp] at h
          simpa using h.symm
        · rcases hbad hnd with hb | hb
          · exact absurd hb h4
          · rw [hb] at h; simp at h

/-- Non-vacuity of C08: a reply received as sent, and one (with a delimiter-like payload) that
is cut and rejected. -/
example : (readPacket { rd := [.data (ack ++ frame 0x0C [7, 1] ++ [1, 2, 3])] } true).1 =
    .ret { command := 0x0C, data := [7, 1] } none := by decide
example : (readPacket { rd := [.data (ack ++ frame 0x0C [1, 7, 0xF3, 2])] } true).1 =
    .ret {} (some .payloadSize) := by decide

/-- **C09**, negation: the reply to a bypass query whose first payload byte is 15 (0x0F after the length
byte 7) is complete, well-formed and in time, and cannot be received. The same for a payload
with a 07 before F0. -/
theorem C09_receivable_violated :
    ¬ ∀ (p : Packet) (c : Conn) (trailing : List UInt8), p.data.length ≤ 255 →
      NoEmptyReads c.rd → c.late = [] →
      delivered c.rd = ack ++ frame p.command p.data ++ trailing →
      (readPacket c true).1 = .ret { command := p.command, data := p.data } none := by
  intro h
  have := h { command := 0xE0, data := [15, 0, 0, 0, 0, 0, 0] }
    { rd := [.data (ack ++ frame 0xE0 [15, 0, 0, 0, 0, 0, 0])] } [] (by decide) (by decide) rfl
    (by decide)
  revert this
  decide

/-- The failing replies come back as errors that name the wrong cause. -/
example : (readPacket { rd := [.data (ack ++ frame 0xE0 [15, 0, 0, 0, 0, 0, 0])] } true).1 =
    .ret {} (some .tooShort) := by decide

/-- **C09**, the strongest true variant, an exact criterion. *Missing from the full property:*
the packets for which a 07 among command, length, payload, checksum is directly followed by
0F, F0 or F3 (for those it is false, see `C09_receivable_violated`). -/
theorem C09_receivable_partial (p : Packet) (hp : p.data.length ≤ 255) (c : Conn)
    (trailing : List UInt8) (hne : NoEmptyReads c.rd) (hl : ∀ b ∈ c.late, b = false)
    (hd : delivered c.rd = ack ++ frame p.command p.data ++ trailing) :
    (readPacket c true).1 = .ret { command := p.command, data := p.data } none ↔
      NoDelim (p.command :: UInt8.ofNat p.data.length ::
        (p.data ++ [checksum p.command p.data])) := by
  rw [← noDelim_body]
  have shape : ack ++ frame p.command p.data ++ trailing =
      7 :: 0xF3 :: 7 :: 0xF0 :: (body p.command p.data ++ 7 :: 0x0F :: trailing) := by
    simp [ack, frame]
  have late : ∀ l : List Bool, (∀ b ∈ l, b = false) → l.headD false = false ∧
      ∀ b ∈ l.tail, b = false := by
    intro l h
    cases l with
    | nil => simp
    | cons a l => simp at h; simp [h.1]; exact h.2
  obtain ⟨l1, hl⟩ := late _ hl
  obtain ⟨l2, hl⟩ := late _ hl
  obtain ⟨l3, hl⟩ := late _ hl
  have hbl := length_body_le (cmd := p.command) hp
  rcases noDelim_or_token (body p.command p.data ++ 7 :: 0x0F :: trailing) with hn | ⟨tok, d, rest, ht⟩
  · exact absurd (by decide) (hn (body p.command p.data) 0x0F trailing rfl)
  obtain ⟨hne', htl, hok, hbad⟩ := frame_token hp ht
  have hval : (readPacket c true).1 =
      if tok.length < 4 then .ret {} (some .tooShort) else unmarshalPacket tok := by
    rw [readPacket_ref hne, hd, shape]
    unfold refRead
    rw [l1, refStep_empty _ _ (by decide)]
    simp only [ne_eq, not_true_eq_false, if_false, Bool.not_true, Bool.false_eq_true]
    rw [l2, refStep_empty _ _ (by decide)]
    simp only [ne_eq, not_true_eq_false, if_false]
    rw [l3, refStep_tok _ ht (by omega)]
    simp [hne']
  rw [hval]
  constructor
  · intro h
    by_cases hnd : NoDelim (body p.command p.data)
    · exact hnd
    · exfalso
      rcases hbad hnd with hb | hb
      · simp [hb] at h
      · rw [hb] at h; split at h <;> simp at h
  · intro hnd
    rw [hok hnd, unmarshal_body _ _ hp]
    have : ¬ (body p.command p.data).length < 4 := by rw [length_body]; omega
    simp [this]

/-- Non-vacuity of C09 (both sides of the criterion). -/
example : NoDelim ((0x0C : UInt8) :: UInt8.ofNat 2 :: ([7, 1] ++ [checksum 0x0C [7, 1]])) := by
  have : splitFunc ((0x0C : UInt8) :: UInt8.ofNat 2 :: ([7, 1] ++ [checksum 0x0C [7, 1]])) = none := by
    decide
  exact splitFunc_none this
example : ¬ NoDelim ((0xE0 : UInt8) :: UInt8.ofNat 7 :: ([15, 0, 0, 0, 0, 0, 0] ++
    [checksum 0xE0 [15, 0, 0, 0, 0, 0, 0]])) := by
  intro h; exact absurd (by decide) (h [0xE0] 0x0F _ rfl)

/-- **C10** `ReadPacket` always returns and never panics, for every script. (`panic` in the model
also stands for the scan loop not finishing; every error comes with the zero packet.) -/
theorem C10_always_returns (c : Conn) (expect : Bool) :
    ∃ q e, (readPacket c expect).1 = .ret q e ∧
      (∀ err, e = some err → q = {} ∧ err ∈
        [.timeout, .scanInput, .tooShort, .payloadSize, .verifyChecksum]) := by
  unfold readPacket
  obtain ⟨p1, e1, s1, c1, h1, i1, -, -, -, a1, -⟩ := scanTimeout_sound (c := c) scanInv_init
  rw [h1]
  cases e1 with
  | some e => rw [(a1 e rfl).1]; exact ⟨_, _, rfl, by simp⟩
  | none =>
    simp only
    split
    · exact ⟨_, _, rfl, by simp⟩
    · split
      · exact ⟨_, _, rfl, by simp⟩
      · obtain ⟨p2, e2, s2, c2, h2, i2, -, -, -, a2, -⟩ := scanTimeout_sound (c := c1) i1
        rw [h2]
        cases e2 with
        | some e => rw [(a2 e rfl).1]; exact ⟨_, _, rfl, by simp⟩
        | none =>
          simp only
          split
          · exact ⟨_, _, rfl, by simp⟩
          · obtain ⟨p3, e3, s3, c3, h3, i3, -, -, -, a3, -⟩ := scanTimeout_sound (c := c2) i2
            rw [h3]
            cases e3 with
            | some e => rw [(a3 e rfl).1]; exact ⟨_, _, rfl, by simp⟩
            | none =>
              simp only
              split
              · exact ⟨_, _, rfl, by simp⟩
              · split
                · next h4 =>
                  obtain ⟨z, cmd, len, raw, ck, rfl⟩ := parts_of_length (w := p3) (by omega)
                  rw [unmarshal_parts]
                  split
                  · exact ⟨_, _, rfl, by simp⟩
                  · split <;> exact ⟨_, _, rfl, by simp⟩
                · exact ⟨_, _, rfl, by simp⟩

/-- Non-vacuity of C10: empty reads, a failing read that carries data. -/
example : (readPacket { rd := List.replicate 101 (.data []) } true).1 = .ret {} none := by
  set_option maxRecDepth 4000 in decide
example : (readPacket { rd := [.data [7, 0xF3, 7], .fail [0xF0, 0, 1]] } true).1 = .ret {} none := by
  decide

/-- **C11** Silence is reported as a timeout: fewer than the needed delimiters (one for a set,
three for a get) before the connection goes silent, nothing unexpected in front of them, however
chunked and whatever the timer does. `ds` are the delimiters received, `r` the partial rest. -/
theorem C11_silence_is_timeout (c : Conn) (expect : Bool) (ds r : List UInt8)
    (hne : NoEmptyReads c.rd) (hb : breaks c.rd = false)
    (hds : ∀ d ∈ ds, IsDelim d) (hr : NoDelim r) (hrl : r.length < 65536)
    (hn : ds.length < if expect then 3 else 1)
    (hd : delivered c.rd = ds.flatMap (fun d => [7, d]) ++ r) :
    (readPacket c expect).1 = .ret {} (some .timeout) := by
  rw [readPacket_ref hne, hb, hd]
  unfold refRead
  match ds, hn with
  | [], hn =>
    simp only [List.flatMap_nil, List.nil_append]
    rw [refStep_silent hr hrl]
  | [d1], hn =>
    cases expect with
    | false => simp at hn
    | true =>
      simp only [List.flatMap_cons, List.flatMap_nil, List.append_nil, List.cons_append, List.nil_append]
      cases c.late.headD false with
      | true => simp
      | false =>
        rw [refStep_empty _ _ (hds d1 (by simp))]
        simp only [ne_eq, not_true_eq_false, if_false, Bool.not_true, Bool.false_eq_true]
        rw [refStep_silent hr hrl]
  | [d1, d2], hn =>
    cases expect with
    | false => simp at hn
    | true =>
      simp only [List.flatMap_cons, List.flatMap_nil, List.append_nil, List.cons_append, List.nil_append]
      cases c.late.headD false with
      | true => simp
      | false =>
        rw [refStep_empty _ _ (hds d1 (by simp))]
        simp only [ne_eq, not_true_eq_false, if_false, Bool.not_true, Bool.false_eq_true]
        cases c.late.tail.headD false with
        | true => simp
        | false =>
          rw [refStep_empty _ _ (hds d2 (by simp))]
          simp only [ne_eq, not_true_eq_false, if_false]
          rw [refStep_silent hr hrl]
  | d1 :: d2 :: d3 :: ds, hn => cases expect <;> simp at hn <;> omega

/-- Non-vacuity of C11: ACK and an incomplete frame, then silence. -/
example : (readPacket { rd := [.data [7, 0xF3, 7, 0xF0, 0], .data [0x0C, 6, 1, 2], .stall,
    .data [7, 0x0F]] } true).1 = .ret {} (some .timeout) := by decide

/-- **C12** Unexpected bytes before the ACK, or between the first and second delimiter of an
expected reply: scan-input error (or the timeout error if the timer wins), no packet.
*Missing from the full property:* more than 65534 such bytes, for which it is false
(`C12_unexpected_bytes_violated`). -/
theorem C12_unexpected_bytes_partial (c : Conn) (expect : Bool) (tok rest : List UInt8) (d : UInt8)
    (hne : NoEmptyReads c.rd) (htok : tok ≠ []) (hlen : tok.length ≤ 65534) :
    (Token (delivered c.rd) tok d rest →
      (readPacket c expect).1 =
        .ret {} (some (if c.late.headD false then .timeout else .scanInput))) ∧
    (∀ d0, IsDelim d0 → (∃ r0, delivered c.rd = 7 :: d0 :: r0 ∧ Token r0 tok d rest) →
      (readPacket c true).1 =
        .ret {} (some (if c.late.headD false || c.late.tail.headD false then .timeout
          else .scanInput))) := by
  constructor
  · intro ht
    rw [readPacket_ref hne]
    unfold refRead
    cases c.late.headD false with
    | true => simp
    | false => rw [refStep_tok _ ht (by omega)]; simp [htok]
  · rintro d0 hd0 ⟨r0, hd, ht⟩
    rw [readPacket_ref hne, hd]
    unfold refRead
    cases c.late.headD false with
    | true => simp
    | false =>
      rw [refStep_empty _ _ hd0]
      simp only [ne_eq, not_true_eq_false, if_false, Bool.not_true, Bool.false_eq_true]
      cases c.late.tail.headD false with
      | true => simp
      | false => rw [refStep_tok _ ht (by omega)]; simp [htok]

/-- Non-vacuity of C12. -/
example : (readPacket { rd := [.data [0x42], .data [7, 0xF3]] } false).1 =
    .ret {} (some .scanInput) := by decide
example : (readPacket { rd := [.data [7, 0xF3, 1, 7, 7, 0xF0, 0]] } true).1 =
    .ret {} (some .scanInput) := by decide

/-- **C12**, negation for very long noise: 65536 (or more) bytes without any delimiter are
accepted as if they were an acknowledgement. -/
theorem C12_unexpected_bytes_violated (noise : List UInt8) (hn : NoDelim noise)
    (hl : 65536 ≤ noise.length) :
    (readPacket { rd := [.data noise] } false).1 = .ret {} none := by
  have hne : noise ≠ [] := by rintro rfl; simp at hl
  have hn' : NoEmptyReads [.data noise] := by
    intro bs hb; simp at hb; subst hb; exact hne
  rw [readPacket_ref hn']
  unfold refRead
  simp only [delivered, breaks, List.append_nil, List.headD_nil]
  rw [refStep_eof (.inr ⟨?_, hl⟩)]
  · simp
  · rw [← List.take_append_drop 65536 noise] at hn
    exact noDelim_left hn

/-- Non-vacuity: such noise exists. -/
example : NoDelim (List.replicate 65536 0) ∧ 65536 ≤ (List.replicate 65536 (0 : UInt8)).length := by
  constructor
  · intro x d y h
    have : (7 : UInt8) ∈ List.replicate 65536 (0 : UInt8) := by rw [h]; simp
    have := List.eq_of_mem_replicate this
    simp at this
  · rw [List.length_replicate]; exact Nat.le_refl _

end Comfo.Props
