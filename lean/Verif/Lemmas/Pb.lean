import Verif.Spec.Proto
/-!
# The protobuf model against the documented wire format
-/
namespace Comfo.Pb
open Spec

/-! ## Varints -/

theorem le7_append (a b : List UInt8) : le7 (a ++ b) = le7 a + 128 ^ a.length * le7 b := by
  induction a with
  | nil => simp [le7]
  | cons x a ih =>
    simp only [List.cons_append, le7, ih, List.length_cons, Nat.pow_succ]
    rw [Nat.mul_add, Nat.mul_comm (128 ^ a.length) 128, Nat.mul_assoc, Nat.add_assoc]

theorem getVarint_iff {k : Nat} : ∀ {bs : List UInt8} {v : Nat} {rest : List UInt8},
    getVarint (k + 1) bs = some (v, rest) ↔ ∃ init last, bs = init ++ last :: rest ∧
      (∀ b ∈ init, 128 ≤ b.toNat) ∧ last.toNat < 128 ∧ init.length ≤ k ∧
      v = le7 (init ++ [last]) ∧ v < 2 * 128 ^ k := by
  induction k with
  | zero =>
    intro bs v rest
    cases bs with
    | nil => simp [getVarint]
    | cons b bs =>
      simp only [getVarint, UInt8.lt_iff_toNat_lt, UInt8.le_iff_toNat_le]
      constructor
      · intro h
        split at h
        · rename_i hb
          split at h
          · cases h
          · rename_i h2
            cases h
            refine ⟨[], b, rfl, by simp, hb, by simp, ?_, ?_⟩
            · simp only [List.nil_append, le7]
              have : b.toNat < 128 := hb
              omega
            · have : ¬ 2 ≤ b.toNat := fun h => h2 ⟨trivial, h⟩
              omega
        · cases h
      · rintro ⟨init, last, h1, -, h2, h3, h4, h5⟩
        have : init = [] := List.length_eq_zero_iff.1 (by omega)
        subst this
        simp only [List.nil_append, List.cons.injEq] at h1
        obtain ⟨rfl, rfl⟩ := h1
        simp only [List.nil_append, le7] at h4
        rw [if_pos (by exact h2), if_neg (by rintro ⟨-, h⟩; have : 2 ≤ b.toNat := h; omega)]
        rw [h4]
        simp only [Option.some.injEq, Prod.mk.injEq, and_true]
        omega
  | succ k ih =>
    intro bs v rest
    cases bs with
    | nil => simp [getVarint]
    | cons b bs =>
      rw [getVarint]
      simp only [UInt8.lt_iff_toNat_lt, UInt8.le_iff_toNat_le]
      have h128 : (128 : UInt8).toNat = 128 := rfl
      rw [h128]
      by_cases hb : b.toNat < 128
      · rw [if_pos hb, if_neg (by rintro ⟨h, -⟩; omega)]
        have hp : 128 ≤ 128 ^ (k + 1) := by
          rw [Nat.pow_succ]; have : 0 < 128 ^ k := Nat.pos_of_ne_zero (by simp); omega
        constructor
        · intro h
          cases h
          refine ⟨[], b, rfl, by simp, hb, by simp, ?_, ?_⟩
          · simp only [List.nil_append, le7]; omega
          · omega
        · rintro ⟨init, last, h1, h2, h3, h4, h5, h6⟩
          cases init with
          | nil =>
            simp only [List.nil_append, List.cons.injEq] at h1
            obtain ⟨rfl, rfl⟩ := h1
            simp only [List.nil_append, le7] at h5
            rw [h5]
            simp only [Option.some.injEq, Prod.mk.injEq, and_true]
            omega
          | cons x init =>
            simp only [List.cons_append, List.cons.injEq] at h1
            have := h2 x (by simp)
            rw [← h1.1] at this
            omega
      · rw [if_neg hb]
        constructor
        · intro h
          match hg : getVarint (k + 1) bs with
          | none => rw [hg] at h; cases h
          | some (v', rest') =>
            rw [hg] at h
            cases h
            obtain ⟨init, last, h1, h2, h3, h4, h5, h6⟩ := ih.1 hg
            refine ⟨b :: init, last, by rw [h1]; rfl, ?_, h3, by simpa using h4, ?_, ?_⟩
            · intro x hx
              rcases List.mem_cons.1 hx with rfl | hx
              · omega
              · exact h2 x hx
            · simp only [List.cons_append, le7, ← h5]
              have := b.toNat_lt
              omega
            · have := b.toNat_lt
              rw [Nat.pow_succ]
              omega
        · rintro ⟨init, last, h1, h2, h3, h4, h5, h6⟩
          cases init with
          | nil =>
            simp only [List.nil_append, List.cons.injEq] at h1
            rw [h1.1] at hb
            omega
          | cons x init =>
            simp only [List.cons_append, List.cons.injEq] at h1
            obtain ⟨rfl, rfl⟩ := h1
            simp only [List.cons_append, le7] at h5
            have := b.toNat_lt
            have hg : getVarint (k + 1) (init ++ last :: rest) = some (le7 (init ++ [last]), rest) :=
              ih.2 ⟨init, last, rfl, fun y hy => h2 y (List.mem_cons_of_mem _ hy), h3,
                by simpa using h4, rfl, by rw [Nat.pow_succ] at h6; omega⟩
            rw [hg]
            simp only [Option.some.injEq, Prod.mk.injEq, and_true]
            rw [h5]
            omega

theorem consumeVarint_iff {bs : List UInt8} {v : Nat} {rest : List UInt8} :
    consumeVarint bs = some (v, rest) ↔ ∃ t, IsVarint v t ∧ bs = t ++ rest := by
  unfold consumeVarint
  rw [getVarint_iff (k := 9)]
  have h64 : 2 * 128 ^ 9 = 2 ^ 64 := by decide
  constructor
  · rintro ⟨init, last, h1, h2, h3, h4, h5, h6⟩
    exact ⟨init ++ [last], ⟨init, last, rfl, h2, h3, by simp; omega, h5, by omega⟩, by simp [h1]⟩
  · rintro ⟨t, ⟨init, last, h1, h2, h3, h4, h5, h6⟩, h7⟩
    refine ⟨init, last, by simp [h7, h1], h2, h3, ?_, by rw [← h1]; exact h5, by omega⟩
    rw [h1] at h4
    simp at h4
    omega

theorem isVarint_pos {v : Nat} {t : List UInt8} (h : IsVarint v t) : 0 < t.length := by
  obtain ⟨init, last, rfl, -⟩ := h
  simp

theorem putVarint_ok {k : Nat} : ∀ {v : Nat}, v < 2 * 128 ^ k →
    ∃ init last, putVarint (k + 1) v = init ++ [last] ∧ (∀ b ∈ init, 128 ≤ b.toNat) ∧
      last.toNat < 128 ∧ init.length ≤ k ∧ v = le7 (init ++ [last]) := by
  induction k with
  | zero =>
    intro v hv
    refine ⟨[], UInt8.ofNat v, ?_, by simp, ?_, by simp, ?_⟩
    · rw [putVarint, if_pos (by omega)]; rfl
    · simp; omega
    · simp [le7]; omega
  | succ k ih =>
    intro v hv
    rw [putVarint]
    by_cases h : v < 128
    · rw [if_pos h]
      refine ⟨[], UInt8.ofNat v, rfl, by simp, ?_, by simp, ?_⟩
      · simp; omega
      · simp [le7]; omega
    · rw [if_neg h]
      rw [Nat.pow_succ] at hv
      obtain ⟨init, last, h1, h2, h3, h4, h5⟩ := ih (v := v / 128) (by omega)
      refine ⟨UInt8.ofNat (v % 128 + 128) :: init, last, by rw [h1]; rfl, ?_, h3,
        by simpa using h4, ?_⟩
      · intro b hb
        rcases List.mem_cons.1 hb with rfl | hb
        · simp; omega
        · exact h2 b hb
      · simp only [List.cons_append, le7, ← h5]
        simp
        omega

theorem varint_ok {v : Nat} (hv : v < 2 ^ 64) : IsVarint v (varint v) := by
  have h64 : 2 * 128 ^ 9 = 2 ^ 64 := by decide
  obtain ⟨init, last, h1, h2, h3, h4, h5⟩ := putVarint_ok (k := 9) (v := v) (by omega)
  refine ⟨init, last, h1, h2, h3, ?_, ?_, hv⟩
  · unfold varint; rw [h1]; simp; omega
  · unfold varint; rw [h1]; exact h5

/-! ## Fields -/

theorem takeBytes_iff {n : Nat} {bs x rest : List UInt8} :
    takeBytes n bs = some (x, rest) ↔ x.length = n ∧ bs = x ++ rest := by
  unfold takeBytes
  constructor
  · intro h
    split at h
    · cases h
      exact ⟨by simp; omega, by simp⟩
    · cases h
  · rintro ⟨rfl, rfl⟩
    simp

theorem consumeValue_iff {wt : Nat} {bs : List UInt8} {val : Wire} {rest : List UInt8} :
    consumeValue wt bs = some (val, rest) ↔ ∃ p, Payload wt val p ∧ bs = p ++ rest := by
  constructor
  · intro h
    unfold consumeValue at h
    split at h
    · simp only [Option.map_eq_some_iff, Prod.mk.injEq] at h
      obtain ⟨⟨v, r⟩, h1, h2, h3⟩ := h
      dsimp only at h2 h3
      subst h2 h3
      obtain ⟨t, h4, h5⟩ := consumeVarint_iff.1 h1
      exact ⟨t, .varint h4, h5⟩
    · simp only [Option.map_eq_some_iff, Prod.mk.injEq] at h
      obtain ⟨⟨x, r⟩, h1, h2, h3⟩ := h
      dsimp only at h2 h3
      subst h2 h3
      obtain ⟨h4, h5⟩ := takeBytes_iff.1 h1
      exact ⟨x, .fixed64 h4, h5⟩
    · split at h
      · cases h
      · rename_i n bs' h0
        simp only [Option.map_eq_some_iff, Prod.mk.injEq] at h
        obtain ⟨⟨x, r⟩, h1, h2, h3⟩ := h
        dsimp only at h2 h3
        subst h2 h3
        obtain ⟨h4, h5⟩ := takeBytes_iff.1 h1
        obtain ⟨t, h6, h7⟩ := consumeVarint_iff.1 h0
        exact ⟨t ++ x, .bytes (by rw [h4]; exact h6), by rw [h7, h5]; simp⟩
    · simp only [Option.map_eq_some_iff, Prod.mk.injEq] at h
      obtain ⟨⟨x, r⟩, h1, h2, h3⟩ := h
      dsimp only at h2 h3
      subst h2 h3
      obtain ⟨h4, h5⟩ := takeBytes_iff.1 h1
      exact ⟨x, .fixed32 h4, h5⟩
    · cases h
  · rintro ⟨p, h, rfl⟩
    cases h with
    | varint h => simp [consumeValue, consumeVarint_iff.2 ⟨p, h, rfl⟩]
    | fixed64 h => simp [consumeValue, takeBytes_iff.2 ⟨h, rfl⟩]
    | @bytes s l h =>
      simp [consumeValue, consumeVarint_iff.2 ⟨l, h, rfl⟩, takeBytes_iff.2 ⟨rfl, rfl⟩]
    | fixed32 h => simp [consumeValue, takeBytes_iff.2 ⟨h, rfl⟩]

theorem payload_type {wt : Nat} {val : Wire} {p : List UInt8} (h : Payload wt val p) :
    wt = 0 ∨ wt = 1 ∨ wt = 2 ∨ wt = 5 := by
  cases h <;> simp

/-! ## Messages -/

/-- Fields inside groups that have begun, then the ends of these groups. -/
def Stacked : List Nat → List Rec → List UInt8 → Prop
  | [], rs, bs => Message rs bs
  | g :: gs, rs, bs => ∃ mid t rest, bs = mid ++ t ++ rest ∧ Inside (10000 - gs.length) mid ∧
      IsVarint (g * 8 + 4) t ∧ Stacked gs rs rest

theorem stacked_group {num : Nat} {t mid t' : List UInt8} :
    ∀ {st : List Nat} {rs : List Rec} {bs : List UInt8}, 1 ≤ num → num ≤ maxNumber st →
      st.length < maxGroups → IsVarint (num * 8 + 3) t → Inside (10000 - st.length) mid →
      IsVarint (num * 8 + 4) t' → Stacked st rs bs → Stacked st rs (t ++ mid ++ t' ++ bs)
  | [], _, _, h0, h1, _, h2, h3, h4, h =>
    .group ⟨h0, by simp only [maxNumber] at h1; omega⟩ h2 (by simpa using h3) h4 h
  | _ :: gs, _, _, h0, h1, hl, h2, h3, h4, ⟨m, e, rest, h5, h6, h7, h8⟩ => by
    simp only [maxNumber] at h1
    simp only [List.length_cons, maxGroups] at hl h3
    refine ⟨t ++ mid ++ t' ++ m, e, rest, by rw [h5]; simp, ?_, h7, h8⟩
    rw [show 10000 - gs.length = (10000 - (gs.length + 1)) + 1 by omega] at h6 ⊢
    exact .group h0 (by omega) h2 h3 h4 h6

theorem records_sound : ∀ {n : Nat} {st : List Nat} {bs : List UInt8} {rs : List Rec},
    records n st bs = some rs → Stacked st rs bs := by
  intro n
  induction n with
  | zero => intro st bs rs h; simp [records] at h
  | succ n ih =>
    intro st bs rs h
    match bs, h with
    | [], h =>
      cases st with
      | nil => simp [records] at h; subst h; exact .nil
      | cons => simp [records] at h
    | b :: bs, h =>
      rw [records] at h
      split at h
      · cases h
      · rename_i tg rest hv
        obtain ⟨t, ht, hbs⟩ := consumeVarint_iff.1 hv
        rw [hbs]
        split at h
        · cases h
        · rename_i hn
          have hpos : 1 ≤ tg / 8 := by omega
          have hmax : tg / 8 ≤ maxNumber st := by omega
          split at h
          · rename_i h3
            split at h
            · rename_i hl
              obtain ⟨mid, t', rest', h5, h6, h7, h8⟩ := ih h
              have := stacked_group hpos hmax hl
                (by rw [show tg / 8 * 8 + 3 = tg by omega]; exact ht) h6 h7 h8
              rw [h5]
              simpa using this
            · cases h
          · split at h
            · rename_i h4
              match st, h with
              | [], h => cases h
              | g :: st, h =>
                dsimp only at h
                split at h
                · rename_i hg
                  refine ⟨[], t, rest, by simp, .nil, ?_, ih h⟩
                  rw [show g * 8 + 4 = tg by omega]
                  exact ht
                · cases h
            · split at h
              · cases h
              · rename_i v rest' hc
                obtain ⟨p, hp, hrest⟩ := consumeValue_iff.1 hc
                have htg : tg = tg / 8 * 8 + tg % 8 := by omega
                match st, h, hmax with
                | [], h, hmax =>
                  simp only [Option.map_eq_some_iff] at h
                  obtain ⟨rs', h9, rfl⟩ := h
                  have := ih h9
                  rw [hrest, ← List.append_assoc]
                  simp only [maxNumber] at hmax
                  exact .field ⟨hpos, by omega⟩ (by rw [← htg]; exact ht) hp this
                | g :: st, h, hmax =>
                  obtain ⟨mid, t', rest'', h5, h6, h7, h8⟩ := ih h
                  simp only [maxNumber] at hmax
                  refine ⟨t ++ p ++ mid, t', rest'', ?_, ?_, h7, h8⟩
                  · rw [hrest, h5]; simp
                  · exact .field hpos (by omega) (by rw [← htg]; exact ht) hp h6

theorem records_tag {n : Nat} {st : List Nat} {bs rest : List UInt8} {num wt : Nat} {t : List UInt8}
    (h1 : 1 ≤ num) (h2 : num ≤ maxNumber st) (hw : wt < 8) (ht : IsVarint (num * 8 + wt) t)
    (hb : bs = t ++ rest) :
    records (n + 1) st bs =
      if wt = 3 then if st.length < maxGroups then records n (num :: st) rest else none
      else if wt = 4 then
        match st with
        | [] => none
        | g :: st => if g = num then records n st rest else none
      else
        match consumeValue wt rest with
        | none => none
        | some (v, rest) =>
          match st with
          | [] => (records n [] rest).map (⟨num, v⟩ :: ·)
          | g :: st => records n (g :: st) rest := by
  have hpos := isVarint_pos ht
  match bs, hb with
  | [], hb =>
    have := congrArg List.length hb
    rw [List.length_append] at this
    simp only [List.length_nil] at this
    omega
  | b :: bs', hb =>
    rw [records, consumeVarint_iff.2 ⟨t, ht, hb⟩]
    dsimp only
    rw [show (num * 8 + wt) / 8 = num by omega, show (num * 8 + wt) % 8 = wt by omega,
      if_neg (by omega)]
    rfl

/-- What is inside groups is skipped. -/
theorem records_inside {d : Nat} {bs : List UInt8} (h : Inside d bs) :
    ∀ (g : Nat) (st : List Nat) (tail : List UInt8) (n : Nat), st.length + d ≤ 10000 →
      (bs ++ tail).length < n →
      ∃ n', tail.length < n' ∧ records n (g :: st) (bs ++ tail) = records n' (g :: st) tail := by
  induction h with
  | nil => intro g st tail n _ hn; exact ⟨n, hn, rfl⟩
  | @field d num wt val t p rest h0 h1 h2 h3 _ ih =>
    intro g st tail n hd hn
    match n, hn with
    | n + 1, hn =>
      have hpos := isVarint_pos h2
      obtain ⟨n', hn', he⟩ := ih g st tail n hd (by simp at hn ⊢; omega)
      refine ⟨n', hn', ?_⟩
      have hwt : wt < 8 ∧ wt ≠ 3 ∧ wt ≠ 4 := by rcases payload_type h3 with h | h | h | h <;> omega
      rw [records_tag (rest := p ++ (rest ++ tail)) h0 (by simp only [maxNumber]; omega) hwt.1 h2
        (by simp), if_neg hwt.2.1, if_neg hwt.2.2, consumeValue_iff.2 ⟨p, h3, rfl⟩]
      exact he
  | @group d num t mid t' rest h0 h1 h2 _ h4 _ ih1 ih2 =>
    intro g st tail n hd hn
    match n, hn with
    | n + 1, hn =>
      have hpos := isVarint_pos h2
      have hpos' := isVarint_pos h4
      obtain ⟨n1, hn1, he1⟩ := ih1 num (g :: st) (t' ++ (rest ++ tail)) n (by simp; omega)
        (by simp at hn ⊢; omega)
      match n1, hn1 with
      | n1 + 1, hn1 =>
        obtain ⟨n2, hn2, he2⟩ := ih2 g st tail n1 hd (by simp at hn1 ⊢; omega)
        refine ⟨n2, hn2, ?_⟩
        rw [records_tag (rest := mid ++ (t' ++ (rest ++ tail))) h0 (by simp only [maxNumber]; omega)
          (by omega) h2 (by simp), if_pos rfl, if_pos (by simp only [List.length_cons, maxGroups]; omega),
          he1, records_tag (rest := rest ++ tail) h0 (by simp only [maxNumber]; omega) (by omega) h4 rfl]
        simp only [↓reduceIte, show ¬ (4 = 3) by omega]
        exact he2

theorem records_complete {rs : List Rec} {bs : List UInt8} (h : Message rs bs) :
    ∀ (tail : List UInt8) (n : Nat), (bs ++ tail).length < n →
      ∃ n', tail.length < n' ∧ records n [] (bs ++ tail) = (records n' [] tail).map (rs ++ ·) := by
  induction h with
  | nil =>
    intro tail n hn
    refine ⟨n, hn, ?_⟩
    simp
  | @field num wt val t p rs rest h1 h2 h3 _ ih =>
    intro tail n hn
    match n, hn with
    | n + 1, hn =>
      have hpos := isVarint_pos h2
      obtain ⟨n', hn', he⟩ := ih tail n (by simp at hn ⊢; omega)
      refine ⟨n', hn', ?_⟩
      have hwt : wt < 8 ∧ wt ≠ 3 ∧ wt ≠ 4 := by rcases payload_type h3 with h | h | h | h <;> omega
      obtain ⟨h0, h1⟩ := h1
      rw [records_tag (rest := p ++ (rest ++ tail)) h0 (by simp only [maxNumber]; omega) hwt.1 h2
        (by simp), if_neg hwt.2.1, if_neg hwt.2.2, consumeValue_iff.2 ⟨p, h3, rfl⟩]
      dsimp only
      rw [he]
      cases records n' [] tail <;> simp
  | @group num t mid t' rs rest h1 h2 h3 h4 _ ih =>
    intro tail n hn
    match n, hn with
    | n + 1, hn =>
      have hpos := isVarint_pos h2
      have hpos' := isVarint_pos h4
      obtain ⟨n1, hn1, he1⟩ := records_inside h3 num [] (t' ++ (rest ++ tail)) n (by simp)
        (by simp at hn ⊢; omega)
      match n1, hn1 with
      | n1 + 1, hn1 =>
        obtain ⟨n2, hn2, he2⟩ := ih tail n1 (by simp at hn1 ⊢; omega)
        refine ⟨n2, hn2, ?_⟩
        obtain ⟨h0, h1⟩ := h1
        rw [records_tag (rest := mid ++ (t' ++ (rest ++ tail))) h0 (by simp only [maxNumber]; omega)
          (by omega) h2 (by simp), if_pos rfl, if_pos (by simp [maxGroups]), he1,
          records_tag (rest := rest ++ tail) h0 (by simp only [maxNumber]; omega) (by omega) h4 rfl]
        simp only [↓reduceIte, show ¬ (4 = 3) by omega]
        exact he2

/-- The model of the decoder accepts exactly the messages of the wire format. -/
theorem fieldsOf_iff {bs : List UInt8} {rs : List Rec} : fieldsOf bs = some rs ↔ Message rs bs := by
  constructor
  · exact records_sound
  · intro h
    obtain ⟨n', hn, he⟩ := records_complete h [] (bs.length + 1) (by simp)
    simp only [List.append_nil] at he
    unfold fieldsOf
    rw [he]
    match n', hn with
    | n + 1, _ => simp [records]

/-! ## Encoding and decoding -/

theorem le32_ok (v : UInt32) : (le32 v).length = 4 ∧ ofLe32 (le32 v) = v := by
  refine ⟨rfl, ?_⟩
  simp only [le32, ofLe32]
  apply UInt32.toNat.inj
  have := v.toNat_lt
  simp
  omega

/-- Values that are a value of the field; enumerations are `int32`. -/
def Val.fits : Val → Prop
  | .enum v => -2147483648 ≤ v ∧ v < 2147483648
  | _ => True

theorem int32_ok {v : Int} (h : -2147483648 ≤ v ∧ v < 2147483648) :
    int32 (v % 18446744073709551616).toNat = v := by
  unfold int32
  split <;> omega

/-- An encoded field: nothing for zero, or the field with a content that is read as the value. -/
theorem encodeField_ok {f : FieldDesc} {v : Val} {a : List UInt8} (h : encodeField f v = some a)
    (hv : v.fits) (hs : ∀ s, v = .str s → s.length < 2 ^ 64) :
    (a = [] ∧ v = f.kind.zero) ∨
    ∃ wt val p, wt < 8 ∧ a = tag f.num wt ++ p ∧ Payload wt val p ∧
      ∀ old, mergeField f ⟨f.num, val⟩ old = some v := by
  unfold encodeField at h
  split at h
  · rename_i hk
    cases h
    rename_i b
    cases b with
    | false => exact .inl ⟨rfl, by rw [hk]; rfl⟩
    | true =>
      refine .inr ⟨0, .varint 1, varint 1, by omega, rfl, .varint (varint_ok (by decide)), ?_⟩
      intro old; simp [mergeField, hk]
  · rename_i hk
    cases h
    rename_i v
    by_cases h0 : v = 0
    · exact .inl ⟨by rw [if_pos h0], by rw [hk, h0]; rfl⟩
    · refine .inr ⟨0, .varint v.toNat, varint v.toNat, by omega, by rw [if_neg h0],
        .varint (varint_ok ?_), ?_⟩
      · have := v.toNat_lt; omega
      · intro old; simp [mergeField, hk]
  · rename_i s hk
    split at h
    · rename_i hu
      cases h
      by_cases h0 : s = []
      · exact .inl ⟨by rw [if_pos h0], by rw [hk, h0]; rfl⟩
      · refine .inr ⟨2, .bytes s, varint s.length ++ s, by omega, by rw [if_neg h0]; simp,
          .bytes (varint_ok (hs s rfl)), ?_⟩
        intro old; simp [mergeField, hk, hu]
    · cases h
  · rename_i hk
    cases h
    rename_i v
    by_cases h0 : v = 0
    · exact .inl ⟨by rw [if_pos h0], by rw [hk, h0]; rfl⟩
    · refine .inr ⟨5, .fixed32 (le32 v), le32 v, by omega, by rw [if_neg h0],
        .fixed32 (le32_ok v).1, ?_⟩
      intro old; simp [mergeField, hk, (le32_ok v).2]
  · rename_i n v hk
    cases h
    by_cases h0 : v = 0
    · exact .inl ⟨by rw [if_pos h0], by rw [hk, h0]; rfl⟩
    · refine .inr ⟨0, .varint (v % 18446744073709551616).toNat, _, by omega, by rw [if_neg h0],
        .varint (varint_ok ?_), ?_⟩
      · omega
      · intro old; simp [mergeField, hk, int32_ok hv]
  · cases h

theorem fieldVal_other {f : FieldDesc} {rs : List Rec} (h : ∀ r ∈ rs, r.num ≠ f.num) (v : Val) :
    fieldVal f rs v = some v := by
  induction rs with
  | nil => rfl
  | cons r rs ih =>
    have : mergeField f r v = some v := by simp [mergeField, h r (by simp)]
    rw [fieldVal, this]
    exact ih fun x hx => h x (by simp [hx])

/-- What is encoded is a message, and decoding gives the values back. -/
theorem marshal_ok : ∀ {fs : List FieldDesc} {vs : List Val} {bs : List UInt8},
    marshal fs vs = some bs → (∀ f ∈ fs, FieldNum f.num) → (fs.map (·.num)).Nodup →
    (∀ v ∈ vs, v.fits) → (∀ s, .str s ∈ vs → s.length < 2 ^ 64) →
    ∃ rs, Message rs bs ∧ (∀ r ∈ rs, r.num ∈ fs.map (·.num)) ∧
      allOf (fun f => fieldVal f rs f.kind.zero) fs = some vs := by
  intro fs
  induction fs with
  | nil =>
    intro vs bs h _ _ _ _
    cases vs with
    | nil => cases h; exact ⟨[], .nil, by simp, rfl⟩
    | cons => cases h
  | cons f fs ih =>
    intro vs bs h hn hd hv hs
    cases vs with
    | nil => cases h
    | cons v vs =>
      rw [marshal] at h
      match ha : encodeField f v, hb : marshal fs vs with
      | none, _ => rw [ha] at h; cases h
      | some a, none => rw [ha, hb] at h; cases h
      | some a, some b =>
        rw [ha, hb] at h
        cases h
        rw [List.map_cons, List.nodup_cons] at hd
        obtain ⟨rs, h1, h2, h3⟩ := ih hb (fun x hx => hn x (by simp [hx])) hd.2
          (fun x hx => hv x (by simp [hx])) (fun s h => hs s (by simp [h]))
        have hf : ∀ r ∈ rs, r.num ≠ f.num := fun r hr e => hd.1 (e ▸ h2 r hr)
        rcases encodeField_ok ha (hv v (by simp)) (fun s e => hs s (by simp [e])) with
          ⟨rfl, rfl⟩ | ⟨wt, val, p, hw, rfl, hp, hm⟩
        · refine ⟨rs, h1, fun r hr => by simp [h2 r hr], ?_⟩
          rw [allOf, fieldVal_other hf, h3]
        · refine ⟨⟨f.num, val⟩ :: rs, ?_, ?_, ?_⟩
          · have hnum := hn f (by simp)
            refine .field hnum (varint_ok ?_) hp h1
            obtain ⟨_, h⟩ := hnum
            omega
          · intro r hr
            rcases List.mem_cons.1 hr with rfl | hr
            · simp
            · simp [h2 r hr]
          · rw [allOf, fieldVal, hm]
            dsimp only
            rw [fieldVal_other hf]
            have : allOf (fun f' => fieldVal f' (⟨f.num, val⟩ :: rs) f'.kind.zero) fs =
                allOf (fun f' => fieldVal f' rs f'.kind.zero) fs := by
              have key : ∀ f' ∈ fs, fieldVal f' (⟨f.num, val⟩ :: rs) f'.kind.zero =
                  fieldVal f' rs f'.kind.zero := by
                intro f' hf'
                have hne : f.num ≠ f'.num := fun e => hd.1 (by
                  rw [e]; exact List.mem_map_of_mem hf')
                rw [fieldVal]
                simp [mergeField, hne]
              clear h3 hd ih hn hb h2 hf
              induction fs with
              | nil => rfl
              | cons x fs ih =>
                rw [allOf, allOf, key x (by simp), ih fun f' h => key f' (by simp [h])]
            rw [this, h3]

theorem unmarshal_marshal {fs : List FieldDesc} {vs : List Val} {bs : List UInt8}
    (h : marshal fs vs = some bs) (hn : ∀ f ∈ fs, FieldNum f.num) (hd : (fs.map (·.num)).Nodup)
    (hv : ∀ v ∈ vs, v.fits) (hs : ∀ s, .str s ∈ vs → s.length < 2 ^ 64) :
    unmarshal fs bs = some vs := by
  obtain ⟨rs, h1, -, h3⟩ := marshal_ok h hn hd hv hs
  unfold unmarshal
  rw [fieldsOf_iff.2 h1]
  exact h3

end Comfo.Pb
