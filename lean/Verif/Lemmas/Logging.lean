import Verif.Spec.Logging
import Verif.Lemmas.JsonWrite
import Verif.Lemmas.Text
/-! # What is written to the log can be read -/
namespace Comfo.Log
open Spec Comfo.Pb Comfo.Twirp Comfo.Json

/-! ## Characters -/

theorem valid_one {a : UInt8} : validUtf8 [a] = true ↔ a.toNat < 128 := by
  rw [validUtf8.eq_def]
  simp only [validUtf8, UInt8.lt_iff_toNat_lt]
  split <;> simp_all

theorem cont_iff {b : UInt8} : validUtf8.cont b = true ↔ 128 ≤ b.toNat ∧ b.toNat ≤ 191 := by
  simp [validUtf8.cont, UInt8.le_iff_toNat_le]

theorem ofNat_eq {n : Nat} {b : UInt8} (h : n = b.toNat) : UInt8.ofNat n = b := by
  rw [h, UInt8.ofNat_toNat]

/-- A character of two bytes. -/
theorem valid_two {a b : UInt8} (h1 : validUtf8 [a] = false) (h2 : validUtf8 [a, b] = true) :
    194 ≤ a.toNat ∧ a.toNat ≤ 223 ∧ 128 ≤ b.toNat ∧ b.toNat ≤ 191 := by
  have ha : ¬ a < 0x80 := by
    intro h
    rw [valid_one.2 (UInt8.lt_iff_toNat_lt.1 h)] at h1
    cases h1
  rw [validUtf8.eq_def] at h2
  simp only [ha, if_false] at h2
  split at h2
  · rename_i h
    simp only [Bool.and_eq_true, cont_iff] at h2
    exact ⟨UInt8.le_iff_toNat_le.1 h.1, UInt8.le_iff_toNat_le.1 h.2, h2.1⟩
  · cases h2

theorem valid_three {a b c : UInt8} (h1 : validUtf8 [a] = false) (h2 : validUtf8 [a, b] = false)
    (h3 : validUtf8 [a, b, c] = true) :
    224 ≤ a.toNat ∧ a.toNat ≤ 239 ∧ (a.toNat = 224 → 160 ≤ b.toNat) ∧ 128 ≤ b.toNat ∧ b.toNat ≤ 191 ∧
      128 ≤ c.toNat ∧ c.toNat ≤ 191 := by
  have ha : ¬ a < 0x80 := by
    intro h
    rw [valid_one.2 (UInt8.lt_iff_toNat_lt.1 h)] at h1
    cases h1
  rw [validUtf8.eq_def] at h2 h3
  simp only [ha, if_false] at h2 h3
  by_cases h : 0xC2 ≤ a ∧ a ≤ 0xDF
  · rw [if_pos h] at h2 h3
    simp only [Bool.and_eq_true] at h3
    rw [h3.1, validUtf8] at h2
    cases h2
  · rw [if_neg h] at h3
    split at h3
    · rename_i h
      subst h
      simp [UInt8.le_iff_toNat_le, cont_iff] at h3 ⊢
      omega
    split at h3
    · rename_i h
      subst h
      simp [UInt8.le_iff_toNat_le, cont_iff] at h3 ⊢
      omega
    split at h3
    · rename_i h
      simp [UInt8.le_iff_toNat_le, cont_iff] at h3 h ⊢
      omega
    · cases h3

theorem valid_four {a b c d : UInt8} (h1 : validUtf8 [a] = false) (h2 : validUtf8 [a, b] = false)
    (h3 : validUtf8 [a, b, c] = false) (h4 : validUtf8 [a, b, c, d] = true) :
    240 ≤ a.toNat ∧ a.toNat ≤ 244 ∧ (a.toNat = 240 → 144 ≤ b.toNat) ∧ 128 ≤ b.toNat ∧ b.toNat ≤ 191 ∧
      128 ≤ c.toNat ∧ c.toNat ≤ 191 ∧ 128 ≤ d.toNat ∧ d.toNat ≤ 191 := by
  have ha : ¬ a < 0x80 := by
    intro h
    rw [valid_one.2 (UInt8.lt_iff_toNat_lt.1 h)] at h1
    cases h1
  rw [validUtf8.eq_def] at h2 h3 h4
  simp only [ha, if_false] at h2 h3 h4
  by_cases h : 0xC2 ≤ a ∧ a ≤ 0xDF
  · rw [if_pos h] at h2 h4
    simp only [Bool.and_eq_true] at h4
    rw [h4.1, validUtf8] at h2
    cases h2
  · rw [if_neg h] at h3 h4
    split at h4
    · rename_i h'
      rw [if_pos h'] at h3
      simp only [Bool.and_eq_true] at h4
      simp [h4, validUtf8] at h3
    rename_i n1
    rw [if_neg n1] at h3
    split at h4
    · rename_i h'
      rw [if_pos h'] at h3
      simp only [Bool.and_eq_true] at h4
      simp [h4, validUtf8] at h3
    rename_i n2
    rw [if_neg n2] at h3
    split at h4
    · rename_i h'
      rw [if_pos h'] at h3
      simp only [Bool.and_eq_true] at h4
      simp [h4, validUtf8] at h3
    split at h4
    · rename_i h
      subst h
      simp [UInt8.le_iff_toNat_le, cont_iff] at h4 ⊢
      omega
    split at h4
    · rename_i h
      subst h
      simp [UInt8.le_iff_toNat_le, cont_iff] at h4 ⊢
      omega
    split at h4
    · rename_i h
      simp [UInt8.le_iff_toNat_le, cont_iff] at h4 h ⊢
      omega
    · cases h4

/-- What a piece stands for. -/
def Piece.raw : Piece → Bytes
  | .char c => utf8Of c
  | .bad b => [b]

/-- Code points in the range of Unicode. -/
def Piece.Fine : Piece → Prop
  | .char c => c < 0x200000
  | .bad b => 128 ≤ b.toNat

theorem first_code {b : UInt8} {bs : Bytes} {k : Nat}
    (h : [1, 2, 3, 4].find? (fun k => k ≤ (b :: bs).length && validUtf8 ((b :: bs).take k)) = some k) :
    utf8Of (codeOf ((b :: bs).take k)) = (b :: bs).take k ∧ codeOf ((b :: bs).take k) < 0x200000 ∧ 0 < k := by
  simp only [List.find?_cons] at h
  split at h
  · rename_i h1
    obtain rfl := Option.some.inj h
    simp only [List.take, Bool.and_eq_true] at h1 ⊢
    have := valid_one.1 h1.2
    have e : codeOf [b] = b.toNat := rfl
    rw [e]
    refine ⟨?_, by omega, by omega⟩
    rw [utf8Of, if_pos this, UInt8.ofNat_toNat]
  rename_i n1
  simp only [List.length_cons, Nat.le_add_left, decide_true, Bool.true_and, List.take] at n1
  split at h
  · rename_i h2
    obtain rfl := Option.some.inj h
    cases bs with
    | nil => simp at h2
    | cons c bs =>
      simp only [List.take, Bool.and_eq_true] at h2 ⊢
      obtain ⟨p1, p2, p3, p4⟩ := valid_two n1 h2.2
      have e : codeOf [b, c] = (b.toNat - 0xC0) * 64 + (c.toNat - 0x80) := rfl
      rw [e]
      refine ⟨?_, by omega, by omega⟩
      unfold utf8Of
      rw [if_neg (by omega), if_pos (by omega)]
      simp only [List.cons.injEq, and_true]
      exact ⟨ofNat_eq (by omega), ofNat_eq (by omega)⟩
  rename_i n2
  split at h
  · rename_i h3
    obtain rfl := Option.some.inj h
    match bs with
    | [] => simp at h3
    | [c] => simp at h3
    | c :: d :: bs =>
      simp [List.take] at h3 n2 ⊢
      obtain ⟨p1, p2, p3, p4, p5, p6, p7⟩ := valid_three n1 n2 h3
      have e : codeOf [b, c, d] = (b.toNat - 0xE0) * 4096 + (c.toNat - 0x80) * 64 + (d.toNat - 0x80) := rfl
      rw [e]
      refine ⟨?_, by omega⟩
      unfold utf8Of
      rw [if_neg (by omega), if_neg (by omega), if_pos (by omega)]
      simp only [List.cons.injEq, and_true]
      exact ⟨ofNat_eq (by omega), ofNat_eq (by omega), ofNat_eq (by omega)⟩
  rename_i n3
  split at h
  · rename_i h4
    obtain rfl := Option.some.inj h
    match bs with
    | [] => simp at h4
    | [c] => simp at h4
    | [c, d] => simp at h4
    | c :: d :: e :: bs =>
      simp [List.take] at h4 n2 n3 ⊢
      obtain ⟨p1, p2, p3, p4, p5, p6, p7, p8, p9⟩ := valid_four n1 n2 n3 h4
      have he : codeOf [b, c, d, e] = (b.toNat - 0xF0) * 262144 + (c.toNat - 0x80) * 4096 +
          (d.toNat - 0x80) * 64 + (e.toNat - 0x80) := rfl
      rw [he]
      refine ⟨?_, by omega⟩
      unfold utf8Of
      rw [if_neg (by omega), if_neg (by omega), if_neg (by omega)]
      simp only [List.cons.injEq, and_true]
      exact ⟨ofNat_eq (by omega), ofNat_eq (by omega), ofNat_eq (by omega), ofNat_eq (by omega)⟩
  · cases h

theorem pieces_spec : ∀ (n : Nat) (s : Bytes), s.length ≤ n →
    (pieces n s).flatMap Piece.raw = s ∧ ∀ p ∈ pieces n s, p.Fine
  | 0, s, h => by
    cases s with
    | nil => exact ⟨rfl, by simp [pieces]⟩
    | cons _ _ => simp at h
  | n + 1, [], _ => ⟨rfl, by simp [pieces]⟩
  | n + 1, b :: bs, h => by
    unfold pieces
    split
    · rename_i k hk
      obtain ⟨h1, h2, h3⟩ := first_code hk
      obtain ⟨h4, h5⟩ := pieces_spec n ((b :: bs).drop k) (by rw [List.length_drop]; omega)
      refine ⟨?_, ?_⟩
      · rw [List.flatMap_cons, h4, Piece.raw, h1, List.take_append_drop]
      · intro p hp
        rcases List.mem_cons.1 hp with rfl | hp
        · exact h2
        · exact h5 p hp
    · rename_i hk
      obtain ⟨h4, h5⟩ := pieces_spec n bs (by simp at h; omega)
      refine ⟨?_, ?_⟩
      · rw [List.flatMap_cons, h4]; rfl
      · intro p hp
        rcases List.mem_cons.1 hp with rfl | hp
        · rw [List.find?_eq_none] at hk
          have := hk 1 (by simp)
          simp only [List.length_cons, Nat.le_add_left, decide_true, Bool.true_and, List.take] at this
          rw [valid_one] at this
          show 128 ≤ b.toNat
          omega
        · exact h5 p hp

/-! ## Numbers -/

theorem nibble_hex {n : Nat} (h : n < 16) : nibble (hexDigit n) = some n := by
  revert h
  revert n
  decide

theorem readHex_text : ∀ (k n m : Nat) (r : Bytes), n < 16 ^ k →
    readHex k m (hexText k n ++ r) = some (16 ^ k * m + n, r) := by
  have key : ∀ (k n m j : Nat) (r : Bytes), n < 16 ^ k →
      readHex (k + j) m (hexText k n ++ r) = readHex j (16 ^ k * m + n) r := by
    intro k
    induction k with
    | zero => intro n m j r h; simp at h; subst h; simp [hexText]
    | succ k ih =>
      intro n m j r h
      rw [Nat.pow_succ] at h
      rw [hexText, List.append_assoc, Nat.add_right_comm, Nat.add_assoc, ih _ _ _ _ (by omega)]
      show readHex (j + 1) _ (hexDigit (n % 16) :: r) = _
      rw [readHex, nibble_hex (by omega)]
      show readHex j _ r = _
      congr 1
      rw [Nat.pow_succ]
      have := Nat.div_add_mod n 16
      rw [Nat.mul_add, ← Nat.mul_assoc, Nat.mul_comm 16 (16 ^ k)]
      omega
  intro k n m r h
  have := key k n m 0 r h
  rw [Nat.add_zero] at this
  rw [this, readHex]

/-! ## Quoted strings -/

theorem readQuoted_mono : ∀ {n m : Nat} {bs : Bytes} {x : Bytes × Bytes}, readQuoted n bs = some x →
    n ≤ m → readQuoted m bs = some x
  | 0, _, _, _, h, _ => by rw [readQuoted] at h; cases h
  | _ + 1, 0, _, _, _, hm => by omega
  | _ + 1, _ + 1, [], _, h, _ => by rw [readQuoted] at h; cases h
  | n + 1, m + 1, b :: r, x, h, hm => by
    have ih : ∀ {bs : Bytes} {x : Bytes × Bytes}, readQuoted n bs = some x → readQuoted m bs = some x :=
      fun h => readQuoted_mono h (by omega)
    have ihm : ∀ {bs : Bytes} {f : Bytes × Bytes → Bytes × Bytes} {x : Bytes × Bytes},
        (readQuoted n bs).map f = some x → (readQuoted m bs).map f = some x := by
      intro bs f x h
      obtain ⟨y, h1, h2⟩ := Option.map_eq_some_iff.1 h
      rw [ih h1]
      exact congrArg some h2
    rw [readQuoted.eq_def] at h ⊢
    simp only at h ⊢
    by_cases h1 : b = 34
    · rwa [if_pos h1] at h ⊢
    rw [if_neg h1] at h ⊢
    by_cases h2 : b < 32
    · rw [if_pos h2] at h; cases h
    rw [if_neg h2] at h ⊢
    by_cases h3 : b ≠ 92
    · rw [if_pos h3] at h ⊢; exact ihm h
    rw [if_neg h3] at h ⊢
    split at h
    · cases h
    · obtain ⟨y, h1, h2⟩ := Option.bind_eq_some_iff.1 h
      rw [h1]
      exact ihm h2
    · obtain ⟨y, h1, h2⟩ := Option.bind_eq_some_iff.1 h
      rw [h1]
      exact ihm h2
    · obtain ⟨y, h1, h2⟩ := Option.bind_eq_some_iff.1 h
      rw [h1]
      exact ihm h2
    · obtain ⟨y, h1, h2⟩ := Option.bind_eq_some_iff.1 h
      simp only [h1]
      exact ihm h2

/-- `t` after the opening quote is read as `s` and what follows. -/
def Read (t s : Bytes) : Prop :=
  ∀ (n : Nat) (r x y : Bytes), readQuoted n r = some (x, y) →
    readQuoted (n + t.length) (t ++ r) = some (s ++ x, y)

theorem Read.nil : Read [] [] := fun _ _ _ _ h => h

theorem Read.append {t s t' s' : Bytes} (h : Read t s) (h' : Read t' s') : Read (t ++ t') (s ++ s') := by
  intro n r x y hr
  have := h _ _ _ _ (h' _ _ _ _ hr)
  rw [List.length_append, Nat.add_comm t.length, ← Nat.add_assoc, List.append_assoc, List.append_assoc]
  exact this

theorem read_plain {b : UInt8} (h1 : ¬ b < 32) (h2 : b ≠ 34) (h3 : b ≠ 92) : Read [b] [b] := by
  intro n r x y hr
  show readQuoted (n + 1) (b :: r) = _
  rw [readQuoted.eq_def]
  simp only
  rw [if_neg h2, if_neg h1, if_pos h3, hr]
  rfl

theorem read_high {t : Bytes} (h : ∀ b ∈ t, 128 ≤ b.toNat) : Read t t := by
  induction t with
  | nil => exact .nil
  | cons b t ih =>
    have hb := h b (by simp)
    refine Read.append (t := [b]) (s := [b]) (read_plain ?_ ?_ ?_) (ih fun c hc => h c (by simp [hc]))
    · rw [UInt8.lt_iff_toNat_lt]
      simp; omega
    · rintro rfl; simp at hb
    · rintro rfl; simp at hb

theorem read_esc {e c : UInt8} (h : goEscapes.lookup e = some c) : Read [92, e] [c] := by
  intro n r x y hr
  show readQuoted (n + 1 + 1) (92 :: e :: r) = _
  have hr := readQuoted_mono hr (Nat.le_succ n)
  rw [readQuoted.eq_def]
  simp only [show (92 : UInt8) ≠ 34 from by decide, show ¬ (92 : UInt8) < 32 from by decide, if_false,
    ne_eq, not_true]
  split
  · rename_i h0; cases h0
  · rename_i h0; obtain ⟨rfl, -⟩ := List.cons.inj h0; exact absurd (h.symm.trans (by decide)) (Option.some_ne_none c)
  · rename_i h0; obtain ⟨rfl, -⟩ := List.cons.inj h0; exact absurd (h.symm.trans (by decide)) (Option.some_ne_none c)
  · rename_i h0; obtain ⟨rfl, -⟩ := List.cons.inj h0; exact absurd (h.symm.trans (by decide)) (Option.some_ne_none c)
  · rename_i h0
    obtain ⟨rfl, rfl⟩ := List.cons.inj h0
    rw [h, Option.bind_some, hr]
    rfl

theorem hexText_length (k n : Nat) : (hexText k n).length = k := by
  induction k generalizing n with
  | zero => rfl
  | succ k ih => simp [hexText, ih]

theorem read_x {n : Nat} (h : n < 256) : Read (lit "\\x" ++ hexText 2 n) [UInt8.ofNat n] := by
  intro m r x y hr
  show readQuoted (m + (hexText 2 n).length + 1 + 1) (92 :: 120 :: (hexText 2 n ++ r)) = _
  rw [readQuoted.eq_def]
  simp only [show (92 : UInt8) ≠ 34 from by decide, show ¬ (92 : UInt8) < 32 from by decide, if_false,
    ne_eq, not_true, readHex_text 2 n 0 r h, Option.bind_some]
  rw [readQuoted_mono hr (by omega)]
  simp

theorem read_u {n : Nat} (h : n < 65536) : Read (lit "\\u" ++ hexText 4 n) (utf8Of n) := by
  intro m r x y hr
  show readQuoted (m + (hexText 4 n).length + 1 + 1) (92 :: 117 :: (hexText 4 n ++ r)) = _
  rw [readQuoted.eq_def]
  simp only [show (92 : UInt8) ≠ 34 from by decide, show ¬ (92 : UInt8) < 32 from by decide, if_false,
    ne_eq, not_true, readHex_text 4 n 0 r h, Option.bind_some]
  rw [readQuoted_mono hr (by omega), utf8_eq]
  simp

theorem read_U {n : Nat} (h : n < 16 ^ 8) : Read (lit "\\U" ++ hexText 8 n) (utf8Of n) := by
  intro m r x y hr
  show readQuoted (m + (hexText 8 n).length + 1 + 1) (92 :: 85 :: (hexText 8 n ++ r)) = _
  rw [readQuoted.eq_def]
  simp only [show (92 : UInt8) ≠ 34 from by decide, show ¬ (92 : UInt8) < 32 from by decide, if_false,
    ne_eq, not_true, readHex_text 8 n 0 r h, Option.bind_some]
  rw [readQuoted_mono hr (by omega), utf8_eq]
  simp

theorem utf8_high {c : Nat} (h1 : 0x80 ≤ c) (h2 : c < 0x200000) : ∀ b ∈ utf8Of c, 128 ≤ b.toNat := by
  intro b hb
  unfold utf8Of at hb
  rw [if_neg (by omega)] at hb
  split at hb
  · simp only [List.mem_cons, List.not_mem_nil, or_false] at hb
    rcases hb with rfl | rfl <;> rw [UInt8.toNat_ofNat', Nat.mod_eq_of_lt (by omega)] <;> omega
  split at hb
  · simp only [List.mem_cons, List.not_mem_nil, or_false] at hb
    rcases hb with rfl | rfl | rfl <;> rw [UInt8.toNat_ofNat', Nat.mod_eq_of_lt (by omega)] <;> omega
  · simp only [List.mem_cons, List.not_mem_nil, or_false] at hb
    rcases hb with rfl | rfl | rfl | rfl <;> rw [UInt8.toNat_ofNat', Nat.mod_eq_of_lt (by omega)] <;> omega

theorem utf8_low {c : Nat} (h : c < 0x80) : utf8Of c = [UInt8.ofNat c] := by
  unfold utf8Of
  rw [if_pos h]

theorem read_piece (U : Unicode) {p : Piece} (h : p.Fine) : Read (p.quoted U) p.raw := by
  cases p with
  | bad b =>
    have := read_x b.toNat_lt
    rwa [UInt8.ofNat_toNat] at this
  | char c =>
    have hc : c < 0x200000 := h
    simp only [Piece.quoted, Piece.raw]
    split
    · rename_i h0
      rcases h0 with rfl | rfl
      · exact read_esc (e := 34) (c := 34) (by decide)
      · exact read_esc (e := 92) (c := 92) (by decide)
    rename_i h0
    split
    · rename_i h1
      by_cases hl : c < 0x80
      · rw [isPrint, if_pos hl] at h1
        simp only [Bool.and_eq_true, decide_eq_true_eq] at h1
        rw [utf8_low hl]
        have e : (UInt8.ofNat c).toNat = c := by rw [UInt8.toNat_ofNat', Nat.mod_eq_of_lt (by omega)]
        refine read_plain ?_ ?_ ?_
        · rw [UInt8.lt_iff_toNat_lt, e]
          simp; omega
        · intro h2; rw [h2] at e; exact h0 (.inl e.symm)
        · intro h2; rw [h2] at e; exact h0 (.inr e.symm)
      · exact read_high (utf8_high (by omega) hc)
    split
    · rename_i h1; subst h1; exact read_esc (e := 97) (c := 7) (by decide)
    split
    · rename_i h1; subst h1; exact read_esc (e := 98) (c := 8) (by decide)
    split
    · rename_i h1; subst h1; exact read_esc (e := 102) (c := 12) (by decide)
    split
    · rename_i h1; subst h1; exact read_esc (e := 110) (c := 10) (by decide)
    split
    · rename_i h1; subst h1; exact read_esc (e := 114) (c := 13) (by decide)
    split
    · rename_i h1; subst h1; exact read_esc (e := 116) (c := 9) (by decide)
    split
    · rename_i h1; subst h1; exact read_esc (e := 118) (c := 11) (by decide)
    split
    · rename_i h1
      rw [utf8_low (by omega)]
      exact read_x (by omega)
    split
    · rename_i h1; exact read_u h1
    · exact read_U (Nat.lt_trans hc (by decide))

theorem read_pieces (U : Unicode) {ps : List Piece} (h : ∀ p ∈ ps, p.Fine) :
    Read (ps.flatMap (Piece.quoted U)) (ps.flatMap Piece.raw) := by
  induction ps with
  | nil => exact .nil
  | cons p ps ih => exact (read_piece U (h p (by simp))).append (ih fun q hq => h q (by simp [hq]))

/-- A quoted string is read as the string. -/
theorem read_quote (U : Unicode) (s r : Bytes) : readWord (quote U s ++ r) = some (s, r) := by
  obtain ⟨h1, h2⟩ := pieces_spec s.length s (Nat.le_refl _)
  have h := read_pieces U h2 1 (34 :: r) [] r rfl
  rw [h1, List.append_nil] at h
  show readWord (34 :: ((pieces s.length s).flatMap (Piece.quoted U) ++ [34] ++ r)) = _
  rw [readWord, List.append_assoc]
  exact readQuoted_mono h (by simp; omega)

/-! ## Words -/

/-- Text that is read as a word. -/
def Word (t s : Bytes) : Prop :=
  ∀ r : Bytes, (∀ b ∈ r.head?, bare b = false) → readWord (t ++ r) = some (s, r)

theorem word_bare {t : Bytes} (h : ∀ b ∈ t, bare b = true) (hn : t ≠ []) : Word t t := by
  intro r hr
  have h1 : (t ++ r).takeWhile bare = t := by
    rw [List.takeWhile_append_of_pos h]
    cases r with
    | nil => simp
    | cons b r => rw [List.takeWhile_cons_of_neg (by simp [hr b (by simp)]), List.append_nil]
  have h2 : (t ++ r).dropWhile bare = r := by
    rw [List.dropWhile_append_of_pos h]
    cases r with
    | nil => simp
    | cons b r => rw [List.dropWhile_cons_of_neg (by simp [hr b (by simp)])]
  unfold readWord
  split
  · rename_i heq
    cases t with
    | nil => exact absurd rfl hn
    | cons b t =>
      obtain ⟨rfl, -⟩ := List.cons.inj heq
      exact absurd (h 34 (by simp)) (by decide)
  · rw [h1, h2, if_neg hn]

theorem bare_high {b : UInt8} (h : 128 ≤ b.toNat) : bare b = true := by
  unfold bare
  simp only [Bool.and_eq_true, decide_eq_true_eq, UInt8.lt_iff_toNat_lt]
  refine ⟨⟨?_, ?_⟩, ?_⟩
  · simp; omega
  · rintro rfl; simp at h
  · rintro rfl; simp at h

theorem unquoted_bare {U : Unicode} {s : Bytes} (h : needsQuoting U s = false) :
    s ≠ [] ∧ ∀ b ∈ s, bare b = true := by
  simp only [needsQuoting, Bool.or_eq_false_iff, decide_eq_false_iff_not] at h
  refine ⟨h.1, ?_⟩
  obtain ⟨h1, h2⟩ := pieces_spec s.length s (Nat.le_refl _)
  have h3 := List.any_eq_false.1 h.2
  intro b hb
  rw [← h1] at hb
  obtain ⟨p, hp, hb⟩ := List.mem_flatMap.1 hb
  have h4 := h3 p hp
  have h5 := h2 p hp
  cases p with
  | bad b => exact absurd rfl h4
  | char c =>
    have hc : c < 0x200000 := h5
    by_cases hl : c < 0x80
    · rw [Piece.raw, utf8_low hl, List.mem_singleton] at hb
      subst hb
      simp only [Piece.unsafe, if_pos hl, Bool.and_eq_true, Bool.or_eq_true, decide_eq_true_eq] at h4
      have e : (UInt8.ofNat c).toNat = c := by rw [UInt8.toNat_ofNat', Nat.mod_eq_of_lt (by omega)]
      unfold bare
      simp only [Bool.and_eq_true, decide_eq_true_eq, UInt8.lt_iff_toNat_lt, ne_eq, ← UInt8.toNat_inj, e]
      simp
      omega
    · exact bare_high (utf8_high (by omega) hc b hb)

theorem word_string (U : Unicode) (s : Bytes) : Word (stringText U s) s := by
  unfold stringText
  split
  · intro r _
    exact read_quote U s r
  · rename_i h
    obtain ⟨h1, h2⟩ := unquoted_bare (Bool.not_eq_true _ ▸ h)
    exact word_bare h2 h1

/-! ## Durations -/

/-- Digits only. -/
theorem digits_bare : ∀ (k n : Nat), ∀ b ∈ digits k n, bare b = true
  | 0, _ => by simp [digits]
  | k + 1, n => by
    have hd : ∀ m, m < 10 → bare (UInt8.ofNat (48 + m)) = true := by decide
    intro b hb
    unfold digits at hb
    split at hb
    · rw [List.mem_singleton] at hb
      subst hb
      exact hd n (by omega)
    · rcases List.mem_append.1 hb with hb | hb
      · exact digits_bare k _ b hb
      · rw [List.mem_singleton] at hb
        subst hb
        exact hd _ (by omega)

theorem frac_bare : ∀ (k v : Nat) (acc : Bytes), (∀ b ∈ acc, bare b = true) →
    ∀ b ∈ fracDigits k v acc, bare b = true
  | 0, _, _, h => h
  | k + 1, v, acc, h => by
    have hd : ∀ m, m < 10 → bare (UInt8.ofNat (48 + m)) = true := by decide
    unfold fracDigits
    refine frac_bare k _ _ ?_
    split
    · intro b hb
      rcases List.mem_cons.1 hb with rfl | hb
      · exact hd _ (by omega)
      · exact h b hb
    · exact h

theorem decimal_bare (k v : Nat) : ∀ b ∈ decimal k v, bare b = true := by
  intro b hb
  unfold decimal at hb
  rcases List.mem_append.1 hb with hb | hb
  · exact digits_bare _ _ b hb
  · split at hb
    · cases hb
    · rcases List.mem_cons.1 hb with rfl | hb
      · decide
      · exact frac_bare _ _ [] (by simp) b hb

theorem dur_bare (d : Int) : ∀ b ∈ durString d, bare b = true := by
  have hs : ∀ b ∈ (if d < 0 then [45] else [] : List UInt8), bare b = true := by
    split
    · decide
    · simp
  have ha : ∀ {s t : Bytes}, (∀ b ∈ s, bare b = true) → (∀ b ∈ t, bare b = true) → ∀ b ∈ s ++ t, bare b = true := by
    intro s t h1 h2 b hb
    rcases List.mem_append.1 hb with hb | hb
    · exact h1 b hb
    · exact h2 b hb
  simp only [durString]
  split
  · decide
  split
  · exact ha (ha hs (digits_bare _ _)) (by decide)
  split
  · exact ha (ha hs (decimal_bare _ _)) (by decide)
  split
  · exact ha (ha hs (decimal_bare _ _)) (by decide)
  split
  · exact ha hs (ha (decimal_bare _ _) (by decide))
  split
  · exact ha hs (ha (ha (digits_bare _ _) (by decide)) (ha (decimal_bare _ _) (by decide)))
  · exact ha (ha (ha hs (digits_bare _ _)) (by decide))
      (ha (ha (digits_bare _ _) (by decide)) (ha (decimal_bare _ _) (by decide)))

theorem dur_ne (d : Int) : durString d ≠ [] := by
  simp only [durString]
  split
  · simp
  split
  · simp
  split
  · simp
  split
  · simp
  split
  · simp
  split <;> simp

/-- What a value is read as. -/
def Value.read : Value → Bytes
  | .str s => s
  | .dur d => durString d

theorem word_value (U : Unicode) (v : Value) : Word (valueText U v) v.read := by
  cases v with
  | str s => exact word_string U s
  | dur d => exact word_bare (dur_bare d) (dur_ne d)

/-! ## Lines -/

/-- Texts of a key and a value, and what they are read as. -/
structure Pair where
  kt : Bytes
  vt : Bytes
  k : Bytes
  v : Bytes

def Pair.Good (p : Pair) : Prop := Word p.kt p.k ∧ Word p.vt p.v

def Pair.text (p : Pair) : Bytes := p.kt ++ 61 :: p.vt

theorem read_pairs {p : Pair} {ps : List Pair} (hp : p.Good) (h : ∀ q ∈ ps, q.Good) (n : Nat)
    (hn : ps.length < n) :
    readPairs n (p.text ++ ps.flatMap fun q => 32 :: q.text) =
      some ((p.k, p.v) :: ps.map fun q => (q.k, q.v)) := by
  induction ps generalizing p n with
  | nil =>
    obtain ⟨h1, h2⟩ := hp
    cases n with
    | zero => omega
    | succ n =>
      have e : p.text ++ ([] : List Pair).flatMap (fun q => 32 :: q.text) = p.kt ++ 61 :: (p.vt ++ []) := by
        simp [Pair.text]
      rw [e, readPairs, h1 _ (by intro b hb; cases hb; decide)]
      simp only
      rw [h2 [] (by simp)]
      rfl
  | cons q qs ih =>
    obtain ⟨h1, h2⟩ := hp
    cases n with
    | zero => omega
    | succ n =>
      have e : p.text ++ (q :: qs).flatMap (fun q => 32 :: q.text) =
          p.kt ++ 61 :: (p.vt ++ 32 :: (q.text ++ qs.flatMap fun q => 32 :: q.text)) := by
        simp [Pair.text]
      rw [e, readPairs, h1 _ (by intro b hb; cases hb; decide)]
      simp only
      rw [h2 _ (by intro b hb; cases hb; decide)]
      simp only
      rw [ih (h q (by simp)) (fun r hr => h r (by simp [hr])) n (by simp at hn; omega)]
      rfl

theorem lines_cons {l : Bytes} (h : 10 ∉ l) (t : Bytes) :
    linesOf (l ++ 10 :: t) = (linesOf t).map (l :: ·) := by
  induction l with
  | nil => simp [linesOf]
  | cons b l ih =>
    simp only [List.mem_cons, not_or] at h
    rw [List.cons_append, linesOf, if_neg (Ne.symm h.1), ih h.2]
    cases linesOf t <;> rfl

/-! ## No line feeds within a line -/

theorem hex_high : ∀ (k n : Nat), ∀ b ∈ hexText k n, 32 ≤ b
  | 0, _ => by simp [hexText]
  | k + 1, n => by
    have hd : ∀ m, m < 16 → 32 ≤ hexDigit m := by decide
    intro b hb
    rw [hexText] at hb
    rcases List.mem_append.1 hb with hb | hb
    · exact hex_high k _ b hb
    · rw [List.mem_singleton] at hb
      subst hb
      exact hd _ (by omega)

theorem piece_high (U : Unicode) {p : Piece} (h : p.Fine) : ∀ b ∈ p.quoted U, 32 ≤ b := by
  have ha : ∀ {s t : Bytes}, (∀ b ∈ s, 32 ≤ b) → (∀ b ∈ t, 32 ≤ b) → ∀ b ∈ s ++ t, 32 ≤ b := by
    intro s t h1 h2 b hb
    rcases List.mem_append.1 hb with hb | hb
    · exact h1 b hb
    · exact h2 b hb
  cases p with
  | bad b => exact ha (by decide) (hex_high _ _)
  | char c =>
    have hc : c < 0x200000 := h
    simp only [Piece.quoted]
    split
    · rename_i h0
      rcases h0 with rfl | rfl <;> decide
    split
    · rename_i h1
      by_cases hl : c < 0x80
      · rw [isPrint, if_pos hl] at h1
        simp only [Bool.and_eq_true, decide_eq_true_eq] at h1
        intro b hb
        rw [utf8_low hl, List.mem_singleton] at hb
        subst hb
        rw [UInt8.le_iff_toNat_le, UInt8.toNat_ofNat', Nat.mod_eq_of_lt (by omega)]
        exact h1.1
      · intro b hb
        have := utf8_high (by omega) hc b hb
        rw [UInt8.le_iff_toNat_le]
        exact Nat.le_trans (by decide) this
    split
    · decide
    split
    · decide
    split
    · decide
    split
    · decide
    split
    · decide
    split
    · decide
    split
    · decide
    split
    · exact ha (by decide) (hex_high _ _)
    split
    · exact ha (by decide) (hex_high _ _)
    · exact ha (by decide) (hex_high _ _)

theorem bare_feed {t : Bytes} (h : ∀ b ∈ t, bare b = true) : 10 ∉ t := fun hb =>
  absurd (h 10 hb) (by decide)

theorem string_feed (U : Unicode) (s : Bytes) : 10 ∉ stringText U s := by
  unfold stringText
  split
  · intro hb
    have : ∀ b ∈ quote U s, 32 ≤ b := by
      intro b hb
      unfold quote at hb
      simp only [List.cons_append, List.mem_cons, List.mem_append, List.mem_flatMap, List.not_mem_nil,
        or_false] at hb
      rcases hb with rfl | ⟨p, hp, hb⟩ | rfl
      · decide
      · exact piece_high U ((pieces_spec s.length s (Nat.le_refl _)).2 p hp) b hb
      · decide
    exact absurd (this 10 hb) (by decide)
  · rename_i h
    exact bare_feed (unquoted_bare (Bool.not_eq_true _ ▸ h)).2

theorem value_feed (U : Unicode) (v : Value) : 10 ∉ valueText U v := by
  cases v with
  | str s => exact string_feed U s
  | dur d => exact bare_feed (dur_bare d)

end Comfo.Log
