import Verif.Props.Api
/-!
# C02, C12, C15, C19, C20, C24, C25, C55: a line that works

What is sent, and that calls succeed, if the writes do and the unit answers. The theorems of
`Verif/Props/Query.lean` and `Verif/Props/Api.lean` say what a call may do at most; these say what it
does.
-/
namespace Comfo.Props
open Spec

/-- **C02** Nothing is sent or read for a packet with more than 255 bytes, neither by `WritePacket` nor
by `QueryPacket`. -/
theorem C02_nothing_sent (p : Packet) (h : 255 < p.data.length) (c : Conn) :
    writePacket p c = ((false, some .tooLong), c) ∧ queryPacket p c = (.ret {} (some .tooLong), c) :=
  ⟨(writePacket_spec p c).1 h, (C15_wire_output p c).1 h⟩

example : writePacket { command := 1, data := List.replicate 256 0 } {} =
    ((false, some .tooLong), {}) :=
  (C02_nothing_sent _ (by rw [List.length_replicate]; omega) _).1

/-- **C12**, exactly. As long as the timer does not fire, bytes in front of the first delimiter, or
between the first and the second one of an expected reply, are reported up to 65534 of them. With more
the packet comes back empty and without an error. *Missing from the full property:* the error, for more
than 65534 bytes. -/
theorem C12_exact_partial (c : Conn) (expect : Bool) (tok rest : List UInt8) (d : UInt8)
    (hne : NoEmptyReads c.rd) (hl : ∀ b ∈ c.late, b = false) (htok : tok ≠ []) :
    (Token (delivered c.rd) tok d rest →
      (readPacket c expect).1 = .ret {} (if tok.length ≤ 65534 then some .scanInput else none)) ∧
    (∀ d0, IsDelim d0 → (∃ r0, delivered c.rd = 7 :: d0 :: r0 ∧ Token r0 tok d rest) →
      (readPacket c true).1 = .ret {} (if tok.length ≤ 65534 then some .scanInput else none)) := by
  have l0 : c.late.headD false = false := by
    cases h : c.late with
    | nil => rfl
    | cons a t => exact hl a (by simp [h])
  have l1 : c.late.tail.headD false = false := by
    match h : c.late with
    | [] => rfl
    | [a] => rfl
    | a :: b :: t => exact hl b (by simp [h])
  have l2 : c.late.tail.tail.headD false = false := by
    match h : c.late with
    | [] => rfl
    | [a] => rfl
    | [a, b] => rfl
    | a :: b :: x :: t => exact hl x (by simp [h])
  by_cases hlen : tok.length ≤ 65534
  · rw [if_pos hlen]
    have := C12_unexpected_bytes_partial c expect tok rest d hne htok hlen
    rw [l0, l1] at this
    exact this
  · rw [if_neg hlen]
    have long : ∀ {w : List UInt8} {b : Bool}, Token w tok d rest →
        refStep w b false = some ([], [], true) := by
      intro w b ht
      refine refStep_eof (.inr ⟨?_, ?_⟩)
      · have e : w.take 65536 = (tok ++ [7]).take 65536 := by
          rw [ht.1, show tok ++ 7 :: d :: rest = (tok ++ [7]) ++ d :: rest by simp,
            List.take_append_of_le_length (by simp; omega)]
        rw [e]
        have hn : NoDelim (tok ++ [7]) := noDelim_append_seven ht.2.2
        rw [← List.take_append_drop 65536 (tok ++ [7])] at hn
        exact noDelim_left hn
      · rw [ht.1]; simp; omega
    constructor
    · intro ht
      rw [readPacket_ref hne]
      unfold refRead
      rw [l0, l1, l2, long ht]
      cases expect <;> simp [refStep_nil]
    · rintro d0 hd0 ⟨r0, hd, ht⟩
      rw [readPacket_ref hne, hd]
      unfold refRead
      rw [l0, l1, l2, refStep_empty _ _ hd0]
      simp [long ht, refStep_nil]

/-- **C15** If the writes succeed, the whole request is sent, whatever the unit does; and if the unit
sends what the query waits for, the query returns it and has sent exactly the request and one ACK. -/
theorem C15_sent (p : Packet) (hp : p.data.length ≤ 255) (c : Conn) (hw : c.wr = []) :
    c.sent ++ frame p.command p.data <+: (queryPacket p c).2.sent ∧
    (∀ q, (readPacket c p.expect).1 = .ret q none → (p.expect = true → q.command = p.command + 1) →
      ∃ c', queryPacket p c = (.ret q none, c') ∧ c'.wr = [] ∧
        c'.sent = c.sent ++ frame p.command p.data ++ ack) ∧
    (∀ q e, (readPacket c p.expect).1 = .ret q (some e) →
      ∃ c', queryPacket p c = (.ret q (some e), c') ∧ c'.sent = c.sent ++ frame p.command p.data) ∧
    (∀ q, (readPacket c p.expect).1 = .ret q none → p.expect = true → q.command ≠ p.command + 1 →
      ∃ c', queryPacket p c = (.ret q (some .invalidResponse), c') ∧
        c'.sent = c.sent ++ frame p.command p.data) := by
  obtain ⟨n, hn, hok, -, hr⟩ := queryPacket_phases p c hp
  have hn' := hok (.inl (by rw [hw]; rfl))
  obtain ⟨q, e, c2, hrd, hs, hw2, a, b, d⟩ := hr (by rw [hw]; simp)
  rw [hn', List.take_length] at hs hrd
  have hrd' := congrArg Prod.fst hrd
  rw [readPacket_indep (c.wrote _) c _ rfl rfl] at hrd'
  have hack : writeAck c2 = ((false, none), c2.wrote ack) := by
    obtain ⟨e, m, ha, -, -, h0, h1, -⟩ := writeAck_spec c2
    have he := h1 (.inl (by rw [hw2, hw]; rfl))
    rw [ha, he, h0 he]; rfl
  have hc2 : (c2.wrote ack).wr = [] ∧
      (c2.wrote ack).sent = c.sent ++ frame p.command p.data ++ ack := by
    simp [Conn.wrote, hs, hw2, hw]
  refine ⟨?_, ?_, ?_, ?_⟩
  · cases e with
    | some e => rw [a e rfl, hs]; exact List.prefix_rfl
    | none =>
      by_cases hc : p.expect = true → q.command = p.command + 1
      · rw [d rfl hc, hack, hc2.2]; exact List.prefix_append _ _
      · have he : p.expect = true := by
          cases h : p.expect with
          | true => rfl
          | false => exact absurd (fun h' => by rw [h] at h'; cases h') hc
        rw [b rfl he (fun h => hc fun _ => h), hs]; exact List.prefix_rfl
  · intro q' h1 h2
    rw [hrd'] at h1
    cases h1
    rw [d rfl h2, hack]
    exact ⟨_, rfl, hc2.1, hc2.2⟩
  · intro q' e' h1
    rw [hrd'] at h1
    cases h1
    exact ⟨_, a e' rfl, hs⟩
  · intro q' h1 h2 h3
    rw [hrd'] at h1
    cases h1
    exact ⟨_, b rfl h2 h3, hs⟩

/-- A unit that acknowledges in time, on a line that takes what is written. -/
def Acks (c : Conn) : Prop :=
  c.wr = [] ∧ NoEmptyReads c.rd ∧ c.late.headD false = false ∧ ack <+: delivered c.rd

theorem set_done {s : SetRequest} {bin : List UInt8} (h : s.marshalBinary = (bin, none))
    (hl : bin.length ≤ 255) (c : Conn) :
    (c.wr = [] → c.sent ++ frame s.requestType bin <+: (setQuery s c).2.sent) ∧
    (Acks c → ∃ c', setQuery s c = (.ret () none, c') ∧ c'.wr = [] ∧
      c'.sent = c.sent ++ frame s.requestType bin ++ ack) := by
  rw [setQuery_eq h]
  have hp := queryPacket_ne_panic { command := s.requestType, data := bin } c
  constructor
  · intro hw
    have := (C15_sent { command := s.requestType, data := bin } hl c hw).1
    match hq : queryPacket { command := s.requestType, data := bin } c with
    | (.panic, _) => rw [hq] at hp; simp at hp
    | (.ret q e, c') => rw [hq] at this; exact this
  · rintro ⟨hw, hne, hlate, r, hr⟩
    have hrd : (readPacket c false).1 = .ret {} none := by
      rw [readPacket_ref hne, ← hr]
      unfold refRead
      rw [hlate, show ack ++ r = 7 :: 0xF3 :: r from rfl, refStep_empty _ _ (by decide)]
      simp
    obtain ⟨c', h1, h2, h3⟩ := (C15_sent { command := s.requestType, data := bin } hl c hw).2.1 {}
      hrd (by simp)
    rw [h1]
    exact ⟨c', rfl, h2, h3⟩

/-- **C19** The command is sent for every temperature up to 107, whatever the unit does, and the call
succeeds if the unit acknowledges it. -/
theorem C19_sent (v : UInt8) (h : v.toNat ≤ 107) (c : Conn) :
    ∃ b : UInt8, b.toNat = (v.toNat + 20) * 2 ∧
      (c.wr = [] → c.sent ++ frame 0xD3 [b] <+: (setComfort v c).2.sent) ∧
      (Acks c → ∃ c', setComfort v c = (.ret () none, c') ∧
        c'.sent = c.sent ++ frame 0xD3 [b] ++ ack) := by
  refine ⟨UInt8.ofNat ((v.toNat + 20) * 2), by simp; omega, ?_⟩
  have hm : (SetRequest.comfort (v.toNat : Int)).marshalBinary =
      ([UInt8.ofNat ((v.toNat + 20) * 2)], none) := by
    simp only [SetRequest.marshalBinary, temperatureMarshal]
    rw [if_neg (by omega), if_neg (by omega)]
    simp only [Prod.mk.injEq, and_true, List.cons.injEq]
    congr 1
  obtain ⟨h1, h2⟩ := set_done hm (by simp) c
  exact ⟨h1, fun ha => by obtain ⟨c', e1, -, e2⟩ := h2 ha; exact ⟨c', e1, e2⟩⟩

/-- **C20** The same for speeds up to 4. -/
theorem C20_sent (v : UInt8) (h : v.toNat ≤ 4) (c : Conn) :
    (c.wr = [] → c.sent ++ frame 0x99 [v] <+: (setSpeed v c).2.sent) ∧
    (Acks c → ∃ c', setSpeed v c = (.ret () none, c') ∧ c'.sent = c.sent ++ frame 0x99 [v] ++ ack) := by
  have hv : v > 4 ↔ 4 < v.toNat := by rw [gt_iff_lt, UInt8.lt_iff_toNat_lt]; simp
  have hm : (SetRequest.speed v).marshalBinary = ([v], none) := by
    simp only [SetRequest.marshalBinary]
    rw [if_neg (fun h' => by have := hv.1 h'; omega)]
  obtain ⟨h1, h2⟩ := set_done hm (by simp) c
  exact ⟨h1, fun ha => by obtain ⟨c', e1, -, e2⟩ := h2 ha; exact ⟨c', e1, e2⟩⟩

/-- **C24** The same for the profiles: the eight percentages are sent in the order the unit stores
them, and read back. -/
theorem C24_sent (q : FanProfiles) (c : Conn) :
    (c.wr = [] → c.sent ++ frame 0xCF (percentages q) <+: (setFanProfiles (some q) c).2.sent) ∧
    (Acks c → ∃ c', setFanProfiles (some q) c = (.ret () none, c') ∧
      c'.sent = c.sent ++ frame 0xCF (percentages q) ++ ack) := by
  obtain ⟨h1, h2⟩ := set_done (s := .fanProfiles q) (bin := percentages q) rfl (by simp [percentages]) c
  exact ⟨h1, fun ha => by obtain ⟨c', e1, -, e2⟩ := h2 ha; exact ⟨c', e1, e2⟩⟩

/-- **C25** For a mode and a speed in range the request to read the profiles is sent, whatever the unit
does; if the profiles come back, the command with the changed ones is sent, whatever the unit does; and
if the unit acknowledges it, the call succeeds. -/
theorem C25_sent (mode speed : UInt8) (hm : mode.toNat ≤ 3) (hs : speed.toNat ≤ 100) (c : Conn) :
    (c.wr = [] → c.sent ++ frame 0xCD [] <+: (setFanProfile mode speed c).2.sent) ∧
    (∀ v c1, getFanProfiles c = (.ret v none, c1) →
      (c1.wr = [] → c1.sent ++ frame 0xCF (replaceMode mode.toNat speed (percentages v)) <+:
        (setFanProfile mode speed c).2.sent) ∧
      (Acks c1 → ∃ c', setFanProfile mode speed c = (.ret () none, c') ∧
        c'.sent = c1.sent ++ frame 0xCF (replaceMode mode.toNat speed (percentages v)) ++ ack)) := by
  have hm' : ¬ mode > 3 := by
    rw [gt_iff_lt, UInt8.lt_iff_toNat_lt]; simp; omega
  have hs' : ¬ speed > 100 := by
    rw [gt_iff_lt, UInt8.lt_iff_toNat_lt]; simp; omega
  have heq : setFanProfile mode speed c = match getFanProfiles c with
      | (.panic, c) => (.panic, c)
      | (.ret _ (some e), c) => (.ret () (some e), c)
      | (.ret cfp none, c) => setQuery (.fanProfiles (patchProfile mode speed cfp)) c := by
    unfold setFanProfile
    rw [if_neg hm', if_neg hs']
    rfl
  have done : ∀ v c1, getFanProfiles c = (.ret v none, c1) →
      (c1.wr = [] → c1.sent ++ frame 0xCF (replaceMode mode.toNat speed (percentages v)) <+:
        (setFanProfile mode speed c).2.sent) ∧
      (Acks c1 → ∃ c', setFanProfile mode speed c = (.ret () none, c') ∧
        c'.sent = c1.sent ++ frame 0xCF (replaceMode mode.toNat speed (percentages v)) ++ ack) := by
    intro v c1 hg
    have hbin : (SetRequest.fanProfiles (patchProfile mode speed v)).marshalBinary =
        (replaceMode mode.toNat speed (percentages v), none) := by
      have : mode = 0 ∨ mode = 1 ∨ mode = 2 ∨ mode = 3 := by
        have h : mode.toNat = 0 ∨ mode.toNat = 1 ∨ mode.toNat = 2 ∨ mode.toNat = 3 := by omega
        rcases h with h | h | h | h
        · exact .inl (UInt8.toNat.inj h)
        · exact .inr (.inl (UInt8.toNat.inj h))
        · exact .inr (.inr (.inl (UInt8.toNat.inj h)))
        · exact .inr (.inr (.inr (UInt8.toNat.inj h)))
      rcases this with rfl | rfl | rfl | rfl <;> rfl
    have hlen : (replaceMode mode.toNat speed (percentages v)).length ≤ 255 := by
      unfold replaceMode percentages
      split <;> simp
    obtain ⟨h1, h2⟩ := set_done hbin hlen c1
    rw [heq, hg]
    exact ⟨h1, fun ha => by obtain ⟨c', e1, -, e2⟩ := h2 ha; exact ⟨c', e1, e2⟩⟩
  refine ⟨fun hw => ?_, done⟩
  have h1 := (C15_sent (encodeGetRequest .fanProfiles) (by simp [encodeGetRequest]) c hw).1
  have hp := (C17_getters_never_panic c).2.2.2.1
  match hg : getFanProfiles c with
  | (.panic, _) => rw [hg] at hp; simp at hp
  | (.ret v e, c1) =>
    obtain ⟨hc1, hq⟩ := getter_wr hg
    rw [← hc1] at h1
    cases e with
    | some e => rw [heq, hg]; exact h1
    | none =>
      obtain ⟨q, hq⟩ := hq rfl
      obtain ⟨-, h2, -, -⟩ := C15_sent (encodeGetRequest .fanProfiles) (by simp [encodeGetRequest]) c hw
      obtain ⟨k, hk⟩ := queryPacket_wr (encodeGetRequest .fanProfiles) c
      have hw1 : c1.wr = [] := by rw [hc1, hk, hw]; simp
      exact h1.trans ((List.prefix_append _ _).trans ((done v c1 hg).1 hw1))

/-- **C55** A getter sends its request, whatever the unit does; and when it returns the answer it has
sent exactly the request and one ACK. -/
theorem C55_asked (c : Conn) (hw : c.wr = []) :
    let asks := fun (c' : Conn) (failed : Prop) (code : UInt8) =>
      c.sent ++ frame code [] <+: c'.sent ∧ (¬ failed → c'.sent = c.sent ++ frame code [] ++ ack)
    asks (getFans c).2 (∀ v, (getFans c).1 ≠ .ret v none) 0x0B ∧
    asks (getBootloader c).2 (∀ v, (getBootloader c).1 ≠ .ret v none) 0x67 ∧
    asks (getFirmware c).2 (∀ v, (getFirmware c).1 ≠ .ret v none) 0x69 ∧
    asks (getFanProfiles c).2 (∀ v, (getFanProfiles c).1 ≠ .ret v none) 0xCD ∧
    asks (getTemperatures c).2 (∀ v, (getTemperatures c).1 ≠ .ret v none) 0xD1 ∧
    asks (getErrors c).2 (∀ v, (getErrors c).1 ≠ .ret v none) 0xD9 ∧
    asks (getHours c).2 (∀ v, (getHours c).1 ≠ .ret v none) 0xDD ∧
    asks (getBypass c).2 (∀ v, (getBypass c).1 ≠ .ret v none) 0xDF := by
  have key : ∀ {α : Type} (gr : GetRequest) (zero : α) (assert : Response → Option α),
      (getter gr zero assert c).1 ≠ .panic →
      c.sent ++ frame gr.code [] <+: (getter gr zero assert c).2.sent ∧
      (¬ (∀ v, (getter gr zero assert c).1 ≠ .ret v none) →
        (getter gr zero assert c).2.sent = c.sent ++ frame gr.code [] ++ ack) := by
    intro α gr zero assert hp
    match hg : getter gr zero assert c with
    | (.panic, _) => rw [hg] at hp; simp at hp
    | (.ret v e, c1) =>
      obtain ⟨hc1, hq⟩ := getter_wr hg
      obtain ⟨h1, h2, -, -⟩ := C15_sent (encodeGetRequest gr) (by simp [encodeGetRequest]) c hw
      rw [← hc1] at h1
      refine ⟨h1, fun hv => ?_⟩
      cases e with
      | some e => exact absurd (fun v h => by simp at h) hv
      | none =>
        obtain ⟨q, hq⟩ := hq rfl
        obtain ⟨a, ha, -, hb⟩ := (C15_wire_output (encodeGetRequest gr) c).2.2 q c1
          (by rw [hc1]; exact Prod.ext hq rfl)
        rw [hb (by intro n hn; rw [hw] at hn; cases hn)] at ha
        exact ha
  obtain ⟨p1, p2, p3, p4, p5, p6, p7, p8⟩ := C17_getters_never_panic c
  exact ⟨key .fans _ _ p1, key .bootloader _ _ p2, key .firmware _ _ p3, key .fanProfiles _ _ p4,
    key .temps _ _ p5, key .errors _ _ p6, key .hours _ _ p7, key .bypass _ _ p8⟩

/-- Such lines exist: one that acknowledges, and one that answers a request for the profiles and then
acknowledges a command. -/
example : Acks { rd := [.data ack] } ∧ ∃ v c1, getFanProfiles { rd := [.data (ack ++ frame 0xCE
      [1, 2, 3, 5, 6, 9, 30, 31, 2, 1, 4, 8, 0, 0]), .data [7], .data [0xF3]] } = (.ret v none, c1) ∧
      Acks c1 := by
  refine ⟨⟨rfl, by decide, rfl, by decide⟩,
    ⟨1, 2, 3, 4, true, 5, 6, 9, 8, 30, 31, 2⟩,
    { rd := [.data [7], .data [0xF3]], sent := frame 0xCD [] ++ ack },
    by decide, ⟨rfl, by decide, rfl, by decide⟩⟩

end Comfo.Props
