import Verif.Model.PacketText
import Verif.Spec.PacketText
import Verif.Lemmas.Text
/-!
# C98: the text of a packet
-/
namespace Comfo.Props
open Spec Comfo.Pb Comfo.Twirp

theorem after_append (a b : Bytes) : after a (a ++ b) = some b := by simp [after]

theorem stop_at {y : UInt8} {xs ys : Bytes} (h : y ∉ xs) :
    (xs ++ y :: ys).takeWhile (· ≠ y) = xs ∧ (xs ++ y :: ys).dropWhile (· ≠ y) = y :: ys := by
  induction xs with
  | nil => simp
  | cons x xs ih =>
    have hx : x ≠ y := fun e => h (by simp [e])
    have := ih fun hm => h (by simp [hm])
    simpa [hx] using this

theorem stop_none {y : UInt8} {xs : Bytes} (h : y ∉ xs) :
    xs.takeWhile (· ≠ y) = xs ∧ xs.dropWhile (· ≠ y) = [] := by
  induction xs with
  | nil => simp
  | cons x xs ih =>
    have hx : x ≠ y := fun e => h (by simp [e])
    have := ih fun hm => h (by simp [hm])
    simpa [hx] using this

theorem hex_reads (b : UInt8) : readHexByte (hexByte b) = some b.toNat ∧ (44 : UInt8) ∉ hexByte b := by
  have : ∀ n : Fin 256, readHexByte (hexByte (UInt8.ofNat n)) = some n.val ∧
      (44 : UInt8) ∉ hexByte (UInt8.ofNat n) := by decide +kernel
  have h := this ⟨b.toNat, b.toNat_lt⟩
  simpa using h

theorem dec_reads (b : UInt8) : readNat (itoa b.toNat) = some b.toNat ∧ (32 : UInt8) ∉ itoa b.toNat ∧
    (93 : UInt8) ∉ itoa b.toNat ∧ itoa b.toNat ≠ [] := by
  have : ∀ n : Fin 256, (32 : UInt8) ∉ itoa n.val ∧ (93 : UInt8) ∉ itoa n.val := by decide +kernel
  have h := this ⟨b.toNat, b.toNat_lt⟩
  refine ⟨readNat_digits _ (by have := b.toNat_lt; omega), h.1, h.2, digits_ne _ _ (by decide)⟩

theorem bytesText_end (bs : List UInt8) : (93 : UInt8) ∉ bytesText bs := by
  induction bs with
  | nil => simp [bytesText]
  | cons b bs ih =>
    cases bs with
    | nil => exact (dec_reads b).2.2.1
    | cons c bs =>
      simp only [bytesText, List.mem_append, List.mem_cons, not_or]
      exact ⟨(dec_reads b).2.2.1, by decide, ih⟩

theorem bytesText_ne (b : UInt8) (bs : List UInt8) : bytesText (b :: bs) ≠ [] := by
  cases bs with
  | nil => exact (dec_reads b).2.2.2
  | cons c bs => simp [bytesText]

theorem bytesText_go (bs : List UInt8) (hb : bs ≠ []) (k : Nat) (hk : (bytesText bs).length ≤ k) :
    readBytes.go k (bytesText bs) = some bs := by
  induction bs generalizing k with
  | nil => exact absurd rfl hb
  | cons b bs ih =>
    obtain ⟨h1, h2, -, h4⟩ := dec_reads b
    have hl : 0 < (itoa b.toNat).length := List.length_pos_iff.2 h4
    cases bs with
    | nil =>
      obtain ⟨k, rfl⟩ : ∃ m, k = m + 1 := ⟨k - 1, by simp only [bytesText] at hk; omega⟩
      simp only [bytesText, readBytes.go, stop_none h2, h1, Option.bind_some]
      simp [b.toNat_lt]
    | cons c bs =>
      have e : bytesText (b :: c :: bs) = itoa b.toNat ++ 32 :: bytesText (c :: bs) := rfl
      rw [e] at hk ⊢
      rw [List.length_append, List.length_cons] at hk
      obtain ⟨k, rfl⟩ : ∃ m, k = m + 1 := ⟨k - 1, by omega⟩
      simp only [readBytes.go, stop_at h2, h1, Option.bind_some, ih (by simp) k (by omega)]
      simp [b.toNat_lt]

/-- **C98** The text that a packet is printed as can be read back: it says which command it is, whether a
reply is expected, and each byte of the data. -/
theorem C98_packet_text (p : Packet) : readPacketText (packetText p) = some p := by
  obtain ⟨h1, h2⟩ := hex_reads p.command
  have e1 : packetText p = lit "<Packet {Command: " ++ (hexByte p.command ++ 44 :: (lit " Data: [" ++
      (bytesText p.data ++ 93 :: (lit ", Expect: " ++ ((if p.expect then lit "true" else lit "false") ++ lit "}>"))))) := by
    have a : lit ", Data: [" = 44 :: lit " Data: [" := by decide +kernel
    have b : lit "], Expect: " = 93 :: lit ", Expect: " := by decide +kernel
    simp only [packetText, a, b, List.append_assoc, List.cons_append]
  have e2 : ∀ r, after (lit ", Data: [") (44 :: (lit " Data: [" ++ r)) = some r := fun r => after_append (lit ", Data: [") r
  have e3 : ∀ r, after (lit "], Expect: ") (93 :: (lit ", Expect: " ++ r)) = some r := fun r => after_append (lit "], Expect: ") r
  have e4 : readBytes (bytesText p.data) = some p.data := by
    unfold readBytes
    cases hd : p.data with
    | nil => rfl
    | cons b bs =>
      rw [if_neg (bytesText_ne b bs)]
      exact bytesText_go _ (by simp) _ (Nat.le_refl _)
  rw [e1]
  simp only [readPacketText, after_append, Option.bind_some, stop_at h2, h1, e2, stop_at (bytesText_end p.data), e4, e3]
  obtain ⟨c, d, x⟩ := p
  cases x
  · simp only [Bool.false_eq_true, if_false]
    rw [if_neg (by decide +kernel), if_pos (by decide +kernel)]
    simp
  · simp only [if_true]
    rw [if_pos (by decide +kernel)]
    simp

/-- C98: different packets are printed differently. -/
theorem C98_injective {p q : Packet} (h : packetText p = packetText q) : p = q := by
  have := C98_packet_text p
  rw [h, C98_packet_text q] at this
  exact (Option.some.inj this).symm

example : packetText ⟨29, [7, 0, 255], true⟩ = lit "<Packet {Command: 1d, Data: [7 0 255], Expect: true}>" ∧
    packetText ⟨5, [], false⟩ = lit "<Packet {Command: 5, Data: [], Expect: false}>" := by decide +kernel

end Comfo.Props
