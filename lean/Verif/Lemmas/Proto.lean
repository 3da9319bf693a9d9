import Verif.Model.Proto
import Verif.Spec.Wire
/-! Helper lemmas about the packet codec. -/
namespace Comfo

theorem escapeData_eq_doubled (bs : List UInt8) : escapeData bs = Spec.doubled bs := by
  induction bs with
  | nil => rfl
  | cons v r ih =>
    unfold escapeData
    split
    · next h => simp [Spec.doubled, h] at *; exact ih
    · next h => simp [Spec.doubled, h] at *; exact ih

@[simp] theorem unescape_nil : unescapeData [] = [] := rfl

theorem unescape_plain {b : UInt8} (h : b ≠ 7) (w : List UInt8) :
    unescapeData (b :: w) = b :: unescapeData w := by
  cases w with
  | nil => simp [unescapeData, h]
  | cons c w => simp [unescapeData, h]

theorem unescape_pair (w : List UInt8) : unescapeData (7 :: 7 :: w) = 7 :: unescapeData w := by
  simp [unescapeData]

theorem unescape_stray {w : List UInt8} (h : w.head? ≠ some 7) :
    unescapeData (7 :: w) = unescapeData w := by
  cases w with
  | nil => simp [unescapeData]
  | cons c w => simp at h; simp [unescapeData, h]

theorem unescape_escape (bs : List UInt8) : unescapeData (escapeData bs) = bs := by
  induction bs with
  | nil => rfl
  | cons v r ih =>
    by_cases h : v = 7
    · subst h; simp only [escapeData, if_true, unescape_pair, ih]
    · simp only [escapeData, h, if_false, unescape_plain h, ih]

/-- A stray escape in front of escaped data is absorbed. -/
theorem unescape_seven_escape (bs : List UInt8) : unescapeData (7 :: escapeData bs) = bs := by
  induction bs with
  | nil => simp [escapeData, unescapeData]
  | cons v r ih =>
    by_cases h : v = 7
    · subst h; simp only [escapeData, if_true, unescape_pair, ih]
    · simp only [escapeData, h, if_false]
      rw [unescape_stray (by simp [h]), unescape_plain h, unescape_escape]

theorem unescape_iff (w p : List UInt8) : unescapeData w = p ↔ Spec.Unescapes w p := by
  constructor
  · intro h; subst h
    fun_induction unescapeData w with
    | case1 => exact .nil
    | case2 => exact .stray (by simp) .nil
    | case3 a h => exact .plain h .nil
    | case4 r ih => exact .pair ih
    | case5 b r h ih => exact .stray (by simp [h]) ih
    | case6 a b r h ih => exact .plain h ih
  · intro h
    induction h with
    | nil => rfl
    | plain hb _ ih => rw [unescape_plain hb, ih]
    | pair _ ih => rw [unescape_pair, ih]
    | stray hw _ ih => rw [unescape_stray hw, ih]

theorem escape_unescape_of_paired {w : List UInt8} (h : Spec.Paired w) :
    escapeData (unescapeData w) = w := by
  induction h with
  | nil => rfl
  | plain hb _ ih => rw [unescape_plain hb]; simp [escapeData, hb, ih]
  | pair _ ih => rw [unescape_pair]; simp [escapeData, ih]

theorem paired_doubled (bs : List UInt8) : Spec.Paired (Spec.doubled bs) := by
  rw [← escapeData_eq_doubled]
  induction bs with
  | nil => exact .nil
  | cons v r ih =>
    by_cases h : v = 7
    · subst h; simp only [escapeData, if_true]; exact .pair ih
    · simp only [escapeData, h, if_false]; exact .plain h ih

theorem length_doubled (bs : List UInt8) :
    (Spec.doubled bs).length = bs.length + bs.count 7 := by
  induction bs with
  | nil => rfl
  | cons v r ih =>
    by_cases h : v = 7
    · subst h; simp [Spec.doubled] at *; omega
    · simp [Spec.doubled, h] at *; omega

@[simp] theorem byteSum_cons (b : UInt8) (bs : List UInt8) :
    Spec.byteSum (b :: bs) = b.toNat + Spec.byteSum bs := by simp [Spec.byteSum]

theorem foldl_sum_toNat (data : List UInt8) (s : UInt64) :
    (data.foldl (fun s v => s + v.toUInt64) s).toNat =
      (s.toNat + Spec.byteSum data) % 2 ^ 64 := by
  induction data generalizing s with
  | nil => simp [Spec.byteSum]
  | cons v r ih =>
    simp only [List.foldl_cons, ih, UInt64.toNat_add, byteSum_cons, UInt8.toNat_toUInt64]
    omega

/-- The checksum function of the code, for an arbitrary length byte. The `uint64` accumulator
cannot distort the result: 256 divides 2^64. -/
theorem calculateChecksum_toNat (cmd len : UInt8) (data : List UInt8) :
    (calculateChecksum cmd len data).toNat =
      (cmd.toNat + len.toNat + Spec.byteSum data + 173) % 256 := by
  unfold calculateChecksum
  simp only [UInt64.toNat_toUInt8, UInt64.toNat_add, foldl_sum_toNat, UInt8.toNat_toUInt64]
  simp

theorem calculateChecksum_eq_spec (cmd : UInt8) (data : List UInt8) :
    calculateChecksum cmd (UInt8.ofNat data.length) data = Spec.checksum cmd data := by
  apply UInt8.toNat.inj
  rw [calculateChecksum_toNat]
  simp [Spec.checksum]
  omega

theorem toNat_ofNat_of_le {n : Nat} (h : n ≤ 255) : (UInt8.ofNat n).toNat = n := by
  simp; omega

theorem marshal_ok (p : Packet) (h : p.data.length ≤ 255) :
    marshalPacket p = (Spec.body p.command p.data, none) := by
  unfold marshalPacket
  have h' : ¬ p.data.length > 255 := by omega
  simp only [h', if_false]
  rw [calculateChecksum_eq_spec, escapeData_eq_doubled]
  simp [Spec.body]

theorem marshal_long (p : Packet) (h : 255 < p.data.length) :
    marshalPacket p = ([], some .tooLong) := by
  unfold marshalPacket; simp [h]

/-- `UnmarshalPacket` on an input given by its parts. -/
theorem unmarshal_parts (z cmd len ck : UInt8) (raw : List UInt8) :
    unmarshalPacket (z :: cmd :: len :: (raw ++ [ck])) =
      if len.toNat ≠ (unescapeData raw).length then .ret {} (some .payloadSize)
      else if ck ≠ calculateChecksum cmd len (unescapeData raw) then
        .ret {} (some .verifyChecksum)
      else .ret { command := cmd, data := unescapeData raw } none := by
  unfold unmarshalPacket
  have h1 : ¬ (z :: cmd :: len :: (raw ++ [ck])).length < 4 := by simp
  simp only [h1, if_false]
  have h2 : (z :: cmd :: len :: (raw ++ [ck]))[cmdOffset + 1]? = some cmd := by
    simp [cmdOffset]
  have h3 : (z :: cmd :: len :: (raw ++ [ck]))[lenOffset]? = some len := by
    simp [lenOffset, cmdOffset]
  have h4 : (z :: cmd :: len :: (raw ++ [ck]))[(z :: cmd :: len :: (raw ++ [ck])).length - 1]?
      = some ck := by
    have e : z :: cmd :: len :: (raw ++ [ck]) = (z :: cmd :: len :: raw) ++ [ck] := by simp
    rw [e]; rw [List.getElem?_append_right (by simp)]; simp
  have h5 : slice (z :: cmd :: len :: (raw ++ [ck])) dataOffset
      ((z :: cmd :: len :: (raw ++ [ck])).length - 1) = some raw := by
    simp [slice, dataOffset, lenOffset, cmdOffset]
  rw [h2, h3, h4, h5]
  simp [verifyChecksum]

/-- Every input of at least four bytes has the shape used by `unmarshal_parts`. -/
theorem parts_of_length {w : List UInt8} (h : 4 ≤ w.length) :
    ∃ z cmd len raw ck, w = z :: cmd :: len :: (raw ++ [ck]) := by
  match w, h with
  | z :: cmd :: len :: x :: t, _ =>
    refine ⟨z, cmd, len, (x :: t).dropLast, (x :: t).getLast (by simp), ?_⟩
    rw [List.dropLast_concat_getLast]

theorem unmarshal_short {w : List UInt8} (h : w.length < 4) :
    unmarshalPacket w = .ret {} (some .pktLen) := by
  unfold unmarshalPacket; simp [h]

theorem unmarshal_ne_panic (w : List UInt8) : unmarshalPacket w ≠ .panic := by
  by_cases h : w.length < 4
  · rw [unmarshal_short h]; simp
  · obtain ⟨z, cmd, len, raw, ck, rfl⟩ := parts_of_length (w := w) (by omega)
    rw [unmarshal_parts]; split
    · simp
    · split <;> simp

/-- Corrupting one byte of escaped data shortens the payload by one or changes its byte sum
modulo 256. -/
theorem corrupt_escaped (d : List UInt8) (i : Nat) (y : UInt8) (hi : i < (escapeData d).length)
    (hy : (escapeData d)[i] ≠ y) :
    (unescapeData ((escapeData d).set i y)).length ≠ d.length ∨
    Spec.byteSum (unescapeData ((escapeData d).set i y)) % 256 ≠ Spec.byteSum d % 256 := by
  have key : ∀ (x y : UInt8) (e : List UInt8), x ≠ y →
      Spec.byteSum (y :: e) % 256 ≠ Spec.byteSum (x :: e) % 256 := by
    intro x y e hxy heq
    apply hxy
    apply UInt8.toNat.inj
    have := x.toNat_lt; have := y.toNat_lt
    simp at heq; omega
  induction d generalizing i with
  | nil => simp [escapeData] at hi
  | cons x d ih =>
    by_cases hx : x = 7
    · subst hx
      simp only [escapeData, if_true] at hi hy ⊢
      match i with
      | 0 =>
        simp at hy
        right
        simp only [List.set_cons_zero]
        rw [unescape_plain (Ne.symm hy), unescape_seven_escape]
        exact key _ _ _ hy
      | 1 =>
        simp at hy
        right
        simp only [List.set_cons_succ, List.set_cons_zero]
        rw [unescape_stray (by simp; exact Ne.symm hy), unescape_plain (Ne.symm hy),
          unescape_escape]
        exact key _ _ _ hy
      | i + 2 =>
        simp only [List.set_cons_succ, unescape_pair]
        simp at hi hy
        rcases ih i hi hy with h | h
        · left; simpa using h
        · right; simp; omega
    · simp only [escapeData, hx, if_false] at hi hy ⊢
      match i with
      | 0 =>
        simp at hy
        simp only [List.set_cons_zero]
        by_cases hy7 : y = 7
        · left; subst hy7; rw [unescape_seven_escape]; simp
        · right; rw [unescape_plain hy7, unescape_escape]; exact key _ _ _ hy
      | i + 1 =>
        simp only [List.set_cons_succ, unescape_plain hx]
        simp at hi hy
        rcases ih i hi hy with h | h
        · left; simpa using h
        · right; simp; omega

theorem takePayload_doubled (p rest : List UInt8) :
    Spec.takePayload p.length (Spec.doubled p ++ rest) = some (p, rest) := by
  induction p with
  | nil => rfl
  | cons b p ih =>
    by_cases h : b = 7
    · subst h
      simp [Spec.doubled, Spec.takePayload] at *
      exact ih
    · simp [Spec.doubled, Spec.takePayload, h] at *
      exact ih

end Comfo
