import Verif.Lemmas.Query
import Verif.Spec.Reply
import Verif.Props.Codec
/-!
# Properties C13–C16: one query
-/
namespace Comfo.Props
open Spec

/-- Helper for C13: success of a set query means its read succeeded. -/
theorem setQuery_ok {s : SetRequest} {c c' : Conn} (h : setQuery s c = (.ret () none, c')) :
    ∃ p q c1 c2, encodeSetRequest s = (p, none) ∧ p.expect = false ∧ c1.rd = c.rd ∧
      c1.late = c.late ∧ readPacket c1 false = (.ret q none, c2) ∧
      queryPacket p c = (.ret q none, c') := by
  unfold setQuery at h
  match he : encodeSetRequest s with
  | (_, some e) => rw [he] at h; simp at h
  | (p, none) =>
    rw [he] at h
    simp only at h
    match hq : queryPacket p c with
    | (.panic, _) => rw [hq] at h; simp at h
    | (.ret q e, c'') =>
      rw [hq] at h; simp at h
      obtain ⟨rfl, rfl⟩ := h
      obtain ⟨-, -, -, n, c2, -, -, hr, -⟩ := queryPacket_ok hq
      have hexp : p.expect = false := by
        unfold encodeSetRequest at he
        simp only at he
        split at he
        · simp at he
        · split at he
          · simp at he
          · simp at he; rw [← he]
      rw [hexp] at hr
      exact ⟨p, q, c.wrote _, c2, rfl, hexp, rfl, rfl, hr, hq⟩

/-- **C13**, negation. None of these connections contains an acknowledgement: closed, read
error, start delimiter, end delimiter. -/
theorem C13_set_needs_ack_violated :
    ¬ ∀ (v : UInt8) (c : Conn), (setSpeed v c).1 = .ret () none →
      ∃ x y, delivered c.rd = x ++ ack ++ y := by
  intro h
  obtain ⟨x, y, he⟩ := h 3 { rd := [.fail []] } (by decide)
  have := congrArg List.length he
  simp [delivered, ack] at this

/-- The other witnesses. -/
example : (setSpeed 3 { rd := [.fail []] }).1 = .ret () none ∧
    (setSpeed 3 { rd := [.data [7, 0xF0]] }).1 = .ret () none ∧
    (setSpeed 3 { rd := [.data [7, 0x0F]] }).1 = .ret () none ∧
    (setSpeed 3 { rd := [.data [0x55, 0x66], .fail []] }).1 = .ret () none ∧
    (setComfort 20 { rd := [.fail []] }).1 = .ret () none ∧
    (setFanProfiles (some {}) { rd := [.fail []] }).1 = .ret () none := by decide

/-- **C13**, the true part: with a connection that does not fail and delivers less than 64 KiB,
a set call succeeds only if the first thing received is a delimiter. *Missing from the full
property:* failing connections and 64 KiB of noise, and that the delimiter is the ACK and not a
start or end delimiter (false, see above). -/
theorem C13_set_needs_ack_partial (c c' : Conn) (s : SetRequest)
    (hne : NoEmptyReads c.rd) (hb : breaks c.rd = false) (hl : (delivered c.rd).length < 65536)
    (h : setQuery s c = (.ret () none, c')) :
    ack <+: delivered c.rd ∨ [7, 0xF0] <+: delivered c.rd ∨ [7, 0x0F] <+: delivered c.rd := by
  obtain ⟨p, q, c1, c2, -, -, hrd, -, hr, -⟩ := setQuery_ok h
  rw [← hrd] at hne hb hl ⊢
  have hr := congrArg Prod.fst hr
  rw [readPacket_ref hne] at hr
  unfold refRead at hr
  rcases stream_cases (delivered c1.rd) (breaks c1.rd) with ⟨tok, d, rest, ht, htl⟩ | ⟨hn, hl, hb⟩ | hx
  · cases hlate : c1.late.headD false with
    | true => rw [hlate] at hr; simp at hr
    | false =>
      rw [hlate, refStep_tok _ ht htl] at hr
      simp at hr
      by_cases htok : tok = []
      · subst htok
        have hd := ht.1
        rw [hd]
        rcases ht.2.1 with rfl | rfl | rfl
        · left; simp [ack]
        · right; left; simp
        · right; right; simp
      · simp [htok] at hr
  · rw [hb, refStep_silent hn hl] at hr; simp at hr
  · rcases hx with ⟨-, h2⟩ | ⟨-, h2⟩
    · rw [hb] at h2; simp at h2
    · omega

/-- C13 for `SetFanProfile`: its last step is such a set query. -/
theorem C13_setFanProfile_partial (c c' : Conn) (mode speed : UInt8)
    (h : setFanProfile mode speed c = (.ret () none, c')) :
    ∃ cfp c1, getFanProfiles c = (.ret cfp none, c1) ∧
      (NoEmptyReads c1.rd → breaks c1.rd = false → (delivered c1.rd).length < 65536 →
        ack <+: delivered c1.rd ∨ [7, 0xF0] <+: delivered c1.rd ∨ [7, 0x0F] <+: delivered c1.rd) := by
  unfold setFanProfile at h
  split at h
  · simp at h
  · split at h
    · simp at h
    · match hg : getFanProfiles c with
      | (.panic, _) => rw [hg] at h; simp at h
      | (.ret _ (some e), _) => rw [hg] at h; simp at h
      | (.ret cfp none, c1) =>
        rw [hg] at h
        exact ⟨cfp, c1, rfl, fun a b d => C13_set_needs_ack_partial c1 c' _ a b d h⟩

/-- **C13**, exactly what counts as success, for a connection that takes what is written: the timer
does not win, and the first thing received is any delimiter, or the connection ends or fails before a
delimiter came, or 64 KiB without a delimiter came. *Missing from the full property:* everything here
but the ACK. -/
theorem C13_exact_partial (c : Conn) (s : SetRequest) (hw : c.wr = []) (hne : NoEmptyReads c.rd)
    (hv : (encodeSetRequest s).2 = none) :
    (∃ c', setQuery s c = (.ret () none, c')) ↔ c.late.headD false = false ∧
      ((∃ d rest, IsDelim d ∧ delivered c.rd = 7 :: d :: rest) ∨
        (NoDelim (delivered c.rd) ∧ breaks c.rd = true) ∨
        (NoDelim ((delivered c.rd).take 65536) ∧ 65536 ≤ (delivered c.rd).length)) := by
  have key : (readPacket c false).1 = .ret {} none ↔ c.late.headD false = false ∧
      ((∃ d rest, IsDelim d ∧ delivered c.rd = 7 :: d :: rest) ∨
        (NoDelim (delivered c.rd) ∧ breaks c.rd = true) ∨
        (NoDelim ((delivered c.rd).take 65536) ∧ 65536 ≤ (delivered c.rd).length)) := by
    rw [readPacket_ref hne]
    unfold refRead
    cases hlate : c.late.headD false with
    | true => simp
    | false =>
      rcases stream_cases (delivered c.rd) (breaks c.rd) with
        ⟨tok, d, rest, ht, htl⟩ | ⟨hn, hl, hb⟩ | hx
      · rw [refStep_tok _ ht htl]
        simp only [true_and, Bool.not_false, if_true]
        constructor
        · intro h
          by_cases htok : tok = []
          · subst htok
            exact .inl ⟨d, rest, ht.2.1, ht.1⟩
          · rw [if_pos htok] at h; simp at h
        · rintro (⟨d', r', hd', h⟩ | ⟨h, -⟩ | ⟨h, -⟩)
          · have ht' : Token (delivered c.rd) [] d' r' := ⟨h, hd', noDelim_nil⟩
            rw [if_neg (by simpa using (token_unique ht ht').1)]
          · exact absurd ht.2.1 (h _ _ _ ht.1)
          · exfalso
            refine h tok d (rest.take (65536 - (tok.length + 2))) ?_ ht.2.1
            rw [ht.1]
            have : tok ++ 7 :: d :: rest = (tok ++ [7, d]) ++ rest := by simp
            rw [this, List.take_append, List.take_of_length_le (by simp; omega)]
            simp
      · rw [hb, refStep_silent hn hl]
        constructor
        · intro h; simp at h
        · rintro ⟨-, ⟨d, r, hd, h⟩ | ⟨-, h⟩ | ⟨-, h⟩⟩
          · exact absurd hd (hn [] d r h)
          · cases h
          · omega
      · rw [refStep_eof hx]
        simp only [true_and]
        exact ⟨fun _ => .inr hx, fun _ => rfl⟩
  rw [← key]
  match he : encodeSetRequest s with
  | (_, some e) => rw [he] at hv; cases hv
  | (p, none) =>
    have hexp : p.expect = false ∧ p.data.length ≤ 255 := by
      unfold encodeSetRequest at he
      simp only at he
      split at he
      · simp at he
      · split at he
        · simp at he
        · rename_i bin hb
          simp only [Prod.mk.injEq, and_true] at he
          rw [← he]
          refine ⟨rfl, ?_⟩
          unfold SetRequest.marshalBinary at hb
          split at hb
          · split at hb <;> simp at hb
            rw [← hb]; simp
          · split at hb <;> simp at hb
            rw [← hb]; simp
          · simp at hb
            rw [← hb]; simp
    obtain ⟨n, -, -, -, hr⟩ := queryPacket_phases p c hexp.2
    obtain ⟨q, e, c2, h1, -, h3, h4, -, h6⟩ := hr (by simp [hw])
    rw [hexp.1] at h1 h6
    have hrd : (readPacket c false).1 = .ret q e := by
      have h2 := readPacket_ref
        (c := c.wrote ((frame p.command p.data).take n)) (show NoEmptyReads c.rd from hne) false
      rw [h1] at h2
      rw [readPacket_ref hne]
      exact h2.symm
    rw [hrd]
    have hq0 : e = none → q = {} := by
      intro h0
      subst h0
      rw [readPacket_ref hne] at hrd
      unfold refRead at hrd
      split at hrd
      · simp at hrd
      · split at hrd
        · simp at hrd
        · simp at hrd; exact hrd.symm
    unfold setQuery
    rw [he]
    simp only
    cases e with
    | some err =>
      rw [h4 err rfl]
      simp
    | none =>
      rw [h6 rfl (by simp)]
      obtain ⟨e, m, ha, -, -, -, hok, -⟩ := writeAck_spec c2
      have := hok (.inl (by rw [h3, hw]; rfl))
      subst this
      rw [ha]
      simp [hq0 rfl]

/-- Concrete case: the start of a message in place of the ACK, in two reads, meets the right side. -/
example : (setSpeed 3 { rd := [.data [7], .data [0xF0, 9]] }).1 = .ret () none ∧
    (encodeSetRequest (.speed 3)).2 = none ∧ IsDelim 0xF0 ∧
    delivered [.data [7], .data [0xF0, 9]] = 7 :: 0xF0 :: [9] := by decide

/-- Non-vacuity of C13: an acknowledged set. -/
example : (setSpeed 3 { rd := [.data [7], .data [0xF3]] }).1 = .ret () none := by decide

/-- Helper for C14. -/
theorem query_reply {p : Packet} {c c' : Conn} {q : Packet} (hexp : p.expect = true)
    (hcmd : p.command ≠ 255) (h : queryPacket p c = (.ret q none, c')) :
    q.command = p.command + 1 ∧ ReplyIn (delivered c.rd) q.command q.data := by
  obtain ⟨-, -, hc, n, c2, -, -, hr, -⟩ := queryPacket_ok h
  have hc := hc hexp
  rw [hexp] at hr
  refine ⟨hc, ?_⟩
  rcases readPacket_sound hr with hq | ⟨d1, d2, d3, tok, rest, h1, h2, h3, hn, hdel, hu⟩
  · exfalso
    subst hq
    apply hcmd
    have : (0 : UInt8) = p.command + 1 := hc
    have h0 := congrArg UInt8.toNat this
    simp at h0
    apply UInt8.toNat.inj
    have := p.command.toNat_lt
    simp; omega
  · have h4 : ¬ tok.length < 4 := by
      intro h; rw [unmarshal_short h] at hu; simp at hu
    have hexp' := (C04_total_and_strict tok).2.2.1 q hu
    have : q = { command := q.command, data := q.data } := by
      cases q; simp at hexp'; simp [hexp']
    rw [this] at hu
    obtain ⟨z, len, raw, ck, hw, hun, hlen, hck⟩ := ((C04_total_and_strict tok).2.1 _ _).1 hu
    rw [hw] at hdel hn
    refine ⟨d1, d2, d3, z, len, raw, ck, rest, h1, h2, h3, ?_, hn, hun, hlen, hck⟩
    rw [show delivered c.rd = _ from hdel]; simp

/-- Helper for C14: success of a getter. -/
theorem getter_ok {α : Type} {gr : GetRequest} {zero v : α} {assert : Response → Option α}
    {c c' : Conn} (h : getter gr zero assert c = (.ret v none, c')) :
    ∃ payload r, ReplyIn (delivered c.rd) (gr.code + 1) payload ∧
      decodeResponse { command := gr.code + 1, data := payload } = .ret (some r) none ∧
      assert r = some v := by
  unfold getter at h
  match hg : getQuery gr c with
  | (.panic, _) => rw [hg] at h; simp at h
  | (.ret _ (some e), _) => rw [hg] at h; simp at h
  | (.ret none none, _) => rw [hg] at h; simp at h
  | (.ret (some r) none, c1) =>
    rw [hg] at h
    simp only at h
    match ha : assert r with
    | none => rw [ha] at h; simp at h
    | some v' =>
      rw [ha] at h; simp at h
      obtain ⟨rfl, rfl⟩ := h
      unfold getQuery at hg
      match hq : queryPacket (encodeGetRequest gr) c with
      | (.panic, _) => rw [hq] at hg; simp at hg
      | (.ret _ (some e), _) => rw [hq] at hg; simp at hg
      | (.ret qp none, c2) =>
        rw [hq] at hg
        simp at hg
        obtain ⟨hd, rfl⟩ := hg
        obtain ⟨h1, h2⟩ := query_reply (p := encodeGetRequest gr) rfl
          (by cases gr <;> decide) hq
        refine ⟨qp.data, r, ?_, ?_, ha⟩
        · rw [← show qp.command = gr.code + 1 from h1]; exact h2
        · rw [← hd]; unfold decodeResponse; rw [show qp.command = gr.code + 1 from h1]

/-- **C14** A getter succeeds only with a matching, checksummed reply whose payload decodes to
the returned structure (what each `unmarshalBinary` accepts is the subject of C18–C26). For
every script: chunking, failures, closed connections, stalls, timer. -/
theorem C14_get_only_with_reply (c c' : Conn) :
    (∀ v, getFans c = (.ret v none, c') →
      ∃ pl, ReplyIn (delivered c.rd) 0x0C pl ∧ Fans.unmarshalBinary pl = .ret v none) ∧
    (∀ v, getBootloader c = (.ret v none, c') →
      ∃ pl, ReplyIn (delivered c.rd) 0x68 pl ∧ BootInfo.unmarshalBinary pl = .ret v none) ∧
    (∀ v, getFirmware c = (.ret v none, c') →
      ∃ pl, ReplyIn (delivered c.rd) 0x6A pl ∧ BootInfo.unmarshalBinary pl = .ret v none) ∧
    (∀ v, getFanProfiles c = (.ret v none, c') →
      ∃ pl, ReplyIn (delivered c.rd) 0xCE pl ∧ FanProfiles.unmarshalBinary pl = .ret v none) ∧
    (∀ v, getTemperatures c = (.ret v none, c') →
      ∃ pl, ReplyIn (delivered c.rd) 0xD2 pl ∧ Temps.unmarshalBinary pl = .ret v none) ∧
    (∀ v, getErrors c = (.ret v none, c') →
      ∃ pl, ReplyIn (delivered c.rd) 0xDA pl ∧ Errors.unmarshalBinary pl = .ret v none) ∧
    (∀ v, getBypass c = (.ret v none, c') →
      ∃ pl, ReplyIn (delivered c.rd) 0xE0 pl ∧ Bypass.unmarshalBinary pl = .ret v none) ∧
    (∀ v, getHours c = (.ret v none, c') →
      ∃ pl, ReplyIn (delivered c.rd) 0xDE pl ∧ Hours.unmarshalBinary pl = .ret v none) := by
  refine ⟨?_, ?_, ?_, ?_, ?_, ?_, ?_, ?_⟩
  all_goals
    intro v h
    obtain ⟨pl, r, h1, h2, h3⟩ := getter_ok h
    refine ⟨pl, h1, ?_⟩
    simp [decodeResponse, GetRequest.code, Go.map] at h2
    split at h2
    · next heq =>
      simp at h2
      obtain ⟨rfl, rfl⟩ := h2
      simp at h3
      subst h3
      exact heq
    · simp at h2

/-- Non-vacuity of C14: a successful getter and three that fail for lack of a matching reply. -/
example : (getTemperatures { rd := [.data (ack ++ frame 0xD2 [80, 60, 70, 65, 50, 0, 40, 41, 255])] }).1 =
    .ret { comfort := 20, outsideAir := 10, supplyAir := 15, insideAir := 12, exhaustAir := 5,
           geoHeat := 0, reheating := 0, kitchenHood := 107 } none := by decide
example : (getTemperatures { rd := [.fail []] }).1 = .ret {} (some .invalidResponse) := by decide
example : (getTemperatures { rd := [.data (ack ++ frame 0xE0 [0, 0, 0, 0, 0, 0, 0, 0, 0])] }).1 =
    .ret {} (some .invalidResponse) := by decide
example : (getTemperatures { rd := [.data (ack ++ frame 0xD2 [1])] }).1 =
    .ret {} (some .pktLen) := by decide

/-- A writer that keeps the `io.Writer` contract: an incomplete write is reported as an error. -/
def HonestWriter (c : Conn) : Prop := ∀ n, WrEv.short n ∉ c.wr

/-- **C15** What a query puts on the wire.
1. Packets over 255 bytes: nothing is written, nothing read.
2. Otherwise the query appends a prefix of the frame and then a prefix of the ACK to what was
   sent before; nothing of the ACK unless the reply was read without error and has the expected
   command (and then the error, if any, comes from writing the ACK).
3. A successful query has sent exactly frame plus ACK if the writer keeps its contract, and
   always the complete ACK. -/
theorem C15_wire_output (p : Packet) (c : Conn) :
    (255 < p.data.length → queryPacket p c = (.ret {} (some .tooLong), c)) ∧
    (p.data.length ≤ 255 → ∃ a b, (queryPacket p c).2.sent = c.sent ++ a ++ b ∧
      a <+: frame p.command p.data ∧ b <+: ack ∧
      (b ≠ [] → (HonestWriter c → a = frame p.command p.data) ∧
        ∃ q e, (queryPacket p c).1 = .ret q e ∧
          (readPacket c p.expect).1 = .ret q none ∧
          (p.expect = true → q.command = p.command + 1) ∧
          (e = none ∨ e = some .io ∨ e = some .ack))) ∧
    (∀ q c', queryPacket p c = (.ret q none, c') →
      ∃ a, c'.sent = c.sent ++ a ++ ack ∧ a <+: frame p.command p.data ∧
        (HonestWriter c → a = frame p.command p.data)) := by
  have honest : HonestWriter c → (∀ k, c.wr.head? ≠ some (.fail k)) →
      c.wr.head? = none ∨ c.wr.head? = some .ok := by
    intro hh hk
    match hw : c.wr with
    | [] => simp
    | .ok :: _ => simp
    | .short n :: w => exact absurd (by rw [hw]; simp) (hh n)
    | .fail n :: w => exact absurd (by rw [hw]; simp) (hk n)
  refine ⟨?_, ?_, ?_⟩
  · intro h; unfold queryPacket; rw [(writePacket_spec p c).1 h]
  · intro hl
    obtain ⟨n, hn, hok, hf, hr⟩ := queryPacket_phases p c hl
    by_cases hk : ∃ k, c.wr.head? = some (.fail k)
    · obtain ⟨k, hk⟩ := hk
      rw [(hf k hk).2]
      exact ⟨(frame p.command p.data).take n, [], by simp [Conn.wrote], List.take_prefix _ _,
        List.nil_prefix, by simp⟩
    · have hk' : ∀ k, c.wr.head? ≠ some (.fail k) := fun k hk' => hk ⟨k, hk'⟩
      obtain ⟨q, e, c2, hrd, hs, hw, a, b, d⟩ := hr hk'
      cases e with
      | some e =>
        rw [a e rfl]
        exact ⟨(frame p.command p.data).take n, [], by simp [hs], List.take_prefix _ _,
          List.nil_prefix, by simp⟩
      | none =>
        by_cases hc : p.expect = true → q.command = p.command + 1
        · rw [d rfl hc]
          obtain ⟨e, m, ha, -, he, -⟩ := writeAck_spec c2
          rw [ha]
          refine ⟨(frame p.command p.data).take n, ack.take m, by simp [Conn.wrote, hs],
            List.take_prefix _ _, List.take_prefix _ _, ?_⟩
          intro _
          refine ⟨fun hh => ?_, q, e, rfl, ?_, hc, ?_⟩
          · rw [hok (honest hh hk')]; simp
          · have := congrArg Prod.fst hrd
            exact (readPacket_indep c (c.wrote _) _ rfl rfl).trans this
          · cases e with
            | none => simp
            | some e => rcases he e rfl with rfl | rfl <;> simp
        · by_cases he : p.expect = true
          · rw [b rfl he (fun h => hc (fun _ => h))]
            exact ⟨(frame p.command p.data).take n, [], by simp [hs], List.take_prefix _ _,
              List.nil_prefix, by simp⟩
          · exact absurd (fun h => absurd h he) hc
  · intro q c' h
    obtain ⟨hl, hk, hc, n, c2, hn, hok, hrd, hack, hc'⟩ := queryPacket_ok h
    have hs := (readPacket_sent (c.wrote ((frame p.command p.data).take n)) p.expect).1
    rw [hrd] at hs
    refine ⟨(frame p.command p.data).take n, ?_, List.take_prefix _ _, fun hh => ?_⟩
    · rw [hc']; simp [Conn.wrote]; simp at hs; rw [hs]; simp [Conn.wrote]
    · rw [hok (honest hh hk)]; simp

/-- Non-vacuity of C15: a successful get, one with a wrong reply (no ACK), a dishonest writer. -/
example : (queryPacket { command := 0xD1, expect := true }
      { rd := [.data (ack ++ frame 0xD2 [1, 2])] }).2.sent =
    [0x07, 0xF0, 0x00, 0xD1, 0x00, 0x7E, 0x07, 0x0F, 0x07, 0xF3] := by decide
example : (queryPacket { command := 0xD1, expect := true }
      { rd := [.data (ack ++ frame 0xE0 [1, 2])] }).2.sent =
    [0x07, 0xF0, 0x00, 0xD1, 0x00, 0x7E, 0x07, 0x0F] := by decide
example : ((queryPacket { command := 0xD1, expect := true }
      { rd := [.data (ack ++ frame 0xD2 [1, 2])], wr := [.short 3] })).2.sent =
    [0x07, 0xF0, 0x00, 0x07, 0xF3] := by decide

/-- **C16** Write errors abort the query. First part: a failing request write is returned as is,
the read side is untouched and no ACK follows. Second part: when the reply was fine and writing
the ACK fails or is short, the query reports an error. -/
theorem C16_write_errors (p : Packet) (hp : p.data.length ≤ 255) (c : Conn) :
    (∀ n w, c.wr = .fail n :: w →
      ∃ c', queryPacket p c = (.ret {} (some .io), c') ∧ c'.rd = c.rd ∧ c'.late = c.late ∧
        c'.wr = w ∧ c'.sent = c.sent ++ (frame p.command p.data).take n) ∧
    (∀ e1 e2 w q c', c.wr = e1 :: e2 :: w → queryPacket p c = (.ret q none, c') →
      (∀ n, e1 ≠ .fail n) ∧ (∀ n, e2 ≠ .fail n) ∧ (∀ n, e2 = .short n → 2 ≤ n)) ∧
    (∀ e1 w q, (∀ n, e1 ≠ .fail n) → (readPacket c p.expect).1 = .ret q none →
      (p.expect = true → q.command = p.command + 1) →
      (∀ n, c.wr = e1 :: .fail n :: w → (queryPacket p c).1 = .ret q (some .io)) ∧
      (∀ n, n < 2 → c.wr = e1 :: .short n :: w → (queryPacket p c).1 = .ret q (some .ack))) := by
  refine ⟨?_, ?_, ?_⟩
  · intro n w hw
    obtain ⟨m, hn, hok, hf, hr⟩ := queryPacket_phases p c hp
    obtain ⟨hm, hq⟩ := hf n (by rw [hw]; rfl)
    refine ⟨_, hq, rfl, rfl, by simp [Conn.wrote, hw], ?_⟩
    simp [Conn.wrote, hm]
  · intro e1 e2 w q c' hw h
    obtain ⟨hl, hk, hc, n, c2, hn, hok, hrd, hack, hc'⟩ := queryPacket_ok h
    have hs := (readPacket_sent (c.wrote ((frame p.command p.data).take n)) p.expect).2
    rw [hrd] at hs
    simp [Conn.wrote, hw] at hs
    obtain ⟨e, m, ha, -, -, hm, h1, h2, h3⟩ := writeAck_spec c2
    rw [ha] at hack
    simp at hack
    subst hack
    refine ⟨?_, ?_, ?_⟩
    · intro k hk'; exact hk k (by rw [hw]; simp [hk'])
    · intro k hk'
      have := (h2 k (by rw [hs]; simp [hk'])).1
      simp at this
    · intro k hk'
      by_cases h2' : k < 2
      · have := (h3 k (by rw [hs]; simp [hk'])).2 h2'
        simp at this
      · omega
  · intro e1 w q he1 hq hc
    obtain ⟨n, hn, hok, hf, hr⟩ := queryPacket_phases p c hp
    have base : ∀ ev, c.wr = e1 :: ev :: w → ∃ c2, c2.wr = ev :: w ∧
        queryPacket p c = (.ret q (writeAck c2).1.2, (writeAck c2).2) := by
      intro ev hw
      obtain ⟨q', e, c2, hrd, hs, hw2, a, b, d⟩ := hr (fun k hk => by
        rw [hw] at hk; simp at hk; exact he1 k hk)
      have hrd' := congrArg Prod.fst hrd
      have hind : (readPacket (c.wrote ((frame p.command p.data).take n)) p.expect).1 =
          (readPacket c p.expect).1 := readPacket_indep _ _ _ rfl rfl
      rw [hind, hq] at hrd'
      simp at hrd'
      obtain ⟨rfl, rfl⟩ := hrd'
      exact ⟨c2, by rw [hw2, hw]; rfl, d rfl hc⟩
    constructor
    · intro k hw
      obtain ⟨c2, hw2, hq2⟩ := base _ hw
      obtain ⟨e, m, ha, -, -, hm, h1, h2, h3⟩ := writeAck_spec c2
      rw [hq2, ha, (h2 k (by rw [hw2]; rfl)).1]
    · intro k hk hw
      obtain ⟨c2, hw2, hq2⟩ := base _ hw
      obtain ⟨e, m, ha, -, -, hm, h1, h2, h3⟩ := writeAck_spec c2
      rw [hq2, ha, (h3 k (by rw [hw2]; rfl)).2 hk]

/-- Non-vacuity of C16: a request write failing after 3 bytes; an ACK write that fails or is
short. -/
example : queryPacket { command := 0xD1, expect := true }
      { rd := [.data (ack ++ frame 0xD2 [1])], wr := [.fail 3] } =
    (.ret {} (some .io),
      { rd := [.data (ack ++ frame 0xD2 [1])], wr := [], sent := [0x07, 0xF0, 0x00] }) := by decide
example : (queryPacket { command := 0xD1, expect := true }
      { rd := [.data (ack ++ frame 0xD2 [1])], wr := [.ok, .fail 1] }).1 =
    .ret { command := 0xD2, data := [1] } (some .io) := by decide
example : (queryPacket { command := 0xD1, expect := true }
      { rd := [.data (ack ++ frame 0xD2 [1])], wr := [.ok, .short 1] }).1 =
    .ret { command := 0xD2, data := [1] } (some .ack) := by decide

end Comfo.Props
