import Verif.Spec.Text
/-!
# Numbers and durations can be read back
-/
namespace Comfo.Props
open Spec Comfo.Pb Comfo.Twirp

/-! ## Numbers -/

theorem readNat_digit (n d : Nat) (hd : d < 10) (bs : Bytes) :
    readNat.go n (UInt8.ofNat (48 + d) :: bs) = readNat.go (10 * n + d) bs := by
  have e : (UInt8.ofNat (48 + d)).toNat = 48 + d := by simp; omega
  rw [readNat.go, e, if_pos (by omega)]
  congr 1; omega

theorem readNat_go (k m : Nat) (hm : m < 10 ^ k) (hk : 0 < k) (bs : Bytes) :
    readNat.go 0 (digits k m ++ bs) = readNat.go m bs := by
  induction k generalizing m bs with
  | zero => omega
  | succ k ih =>
    rw [digits]
    split
    · rename_i h
      rw [List.singleton_append, readNat_digit 0 m h]
      simp
    · rename_i h
      have hk : 0 < k := by
        rcases Nat.eq_zero_or_pos k with rfl | h'
        · simp at hm; omega
        · exact h'
      rw [List.append_assoc, ih (m / 10) (by rw [Nat.pow_succ] at hm; omega) hk,
        List.singleton_append, readNat_digit _ _ (Nat.mod_lt _ (by decide))]
      congr 1; omega

theorem digits_ne (k m : Nat) (hk : 0 < k) : digits k m ≠ [] := by
  cases k with
  | zero => omega
  | succ k => rw [digits]; split <;> simp

/-- A number is read as what it was. -/
theorem readNat_digits (m : Nat) (hm : m < 10 ^ 20) : readNat (digits 20 m) = some m := by
  have h := readNat_go 20 m hm (by decide) []
  have hn := digits_ne 20 m (by decide)
  rw [List.append_nil] at h
  cases e : digits 20 m with
  | nil => exact absurd e hn
  | cons b bs => rw [readNat, ← e, h, readNat.go]

/-! ## Durations -/

theorem read_digit (total : Nat) (n k : Option Nat) (d : Nat) (hd : d < 10) (bs : Bytes) :
    readParts total n k (UInt8.ofNat (48 + d) :: bs) =
      readParts total (some (10 * n.getD 0 + d)) (k.map (· + 1)) bs := by
  have : d = 0 ∨ d = 1 ∨ d = 2 ∨ d = 3 ∨ d = 4 ∨ d = 5 ∨ d = 6 ∨ d = 7 ∨ d = 8 ∨ d = 9 := by omega
  rcases this with rfl | rfl | rfl | rfl | rfl | rfl | rfl | rfl | rfl | rfl <;>
    (rw [readParts.eq_def]; simp)

theorem read_digits (total k m : Nat) (hm : m < 10 ^ k) (hk : 0 < k) (bs : Bytes) :
    readParts total none none (digits k m ++ bs) = readParts total (some m) none bs := by
  induction k generalizing m bs with
  | zero => omega
  | succ k ih =>
    rw [digits]
    split
    · rename_i h
      rw [List.singleton_append, read_digit _ _ _ m h]
      simp
    · rename_i h
      have hk : 0 < k := by
        rcases Nat.eq_zero_or_pos k with rfl | h'
        · simp at hm; omega
        · exact h'
      rw [List.append_assoc, ih (m / 10) (by rw [Nat.pow_succ] at hm; omega) hk,
        List.singleton_append, read_digit _ _ _ _ (Nat.mod_lt _ (by decide))]
      simp only [Option.getD_some, Option.map_none]
      congr 2; omega

theorem mod_pow_succ (v k : Nat) : 10 * (v / 10 % 10 ^ k) + v % 10 = v % 10 ^ (k + 1) := by
  rw [Nat.pow_succ, Nat.mul_comm (10 ^ k) 10, Nat.mod_mul]
  omega

theorem frac_more (total n j k v : Nat) (acc : Bytes) (ha : acc ≠ []) (bs : Bytes) :
    readParts total (some n) (some j) (fracDigits k v acc ++ bs) =
      readParts total (some (n * 10 ^ k + v % 10 ^ k)) (some (j + k)) (acc ++ bs) := by
  induction k generalizing v acc with
  | zero => simp [fracDigits, Nat.mod_one]
  | succ k ih =>
    rw [fracDigits, if_pos (.inl ha), ih _ _ (by simp), List.cons_append,
      read_digit _ _ _ _ (Nat.mod_lt _ (by decide))]
    simp only [Option.getD_some, Option.map_some]
    congr 2
    rw [← mod_pow_succ, Nat.pow_succ, Nat.mul_add]
    have : n * (10 ^ k * 10) = 10 * (n * 10 ^ k) := by rw [← Nat.mul_assoc, Nat.mul_comm]
    omega

theorem frac_ne {acc : Bytes} (k v : Nat) (h : acc ≠ []) : fracDigits k v acc ≠ [] := by
  induction k generalizing v acc with
  | zero => exact h
  | succ k ih => rw [fracDigits, if_pos (.inl h)]; exact ih _ (by simp)

theorem frac (k v : Nat) : (fracDigits k v [] = [] ∧ v % 10 ^ k = 0) ∨
    (fracDigits k v [] ≠ [] ∧ ∃ j f, j ≤ k ∧ f * 10 ^ (k - j) = v % 10 ^ k ∧
      ∀ total n bs, readParts total (some n) (some 0) (fracDigits k v [] ++ bs) =
        readParts total (some (n * 10 ^ j + f)) (some j) bs) := by
  induction k generalizing v with
  | zero => exact .inl ⟨rfl, by simp [Nat.mod_one]⟩
  | succ k ih =>
    by_cases h : v % 10 = 0
    · rw [fracDigits, if_neg (by simp [h])]
      have hm := mod_pow_succ v k
      rcases ih (v / 10) with ⟨h1, h2⟩ | ⟨h1, j, f, h2, h3, h4⟩
      · exact .inl ⟨h1, by omega⟩
      · refine .inr ⟨h1, j, f, by omega, ?_, h4⟩
        have : k + 1 - j = (k - j) + 1 := by omega
        rw [this, Nat.pow_succ, ← Nat.mul_assoc, h3]
        omega
    · have key := fun total n bs => frac_more total n 0 k (v / 10) [UInt8.ofNat (48 + v % 10)]
        (by simp) bs
      refine .inr ⟨?_, k + 1, v % 10 ^ (k + 1), Nat.le_refl _, by simp, fun total n bs => ?_⟩
      · rw [fracDigits, if_pos (.inr h)]; exact frac_ne _ _ (by simp)
      · rw [fracDigits, if_pos (.inr h), key, List.singleton_append,
          read_digit _ _ _ _ (Nat.mod_lt _ (by decide))]
        simp only [Option.getD_some, Option.map_some, Nat.zero_add]
        congr 2
        rw [← mod_pow_succ, Nat.pow_succ, Nat.mul_add]
        have : n * (10 ^ k * 10) = 10 * (n * 10 ^ k) := by rw [← Nat.mul_assoc, Nat.mul_comm]
        omega

/-- A number with a decimal point, in a unit of a power of ten. -/
theorem read_decimal (k v : Nat) (hv : v / 10 ^ k < 10 ^ 20) : ∃ n j,
    amount (some n) (j.getD 0) (10 ^ k) = some v ∧
    ∀ total bs, readParts total none none (decimal k v ++ bs) = readParts total (some n) j bs := by
  have hd := Nat.div_add_mod v (10 ^ k)
  have pos : ∀ n, 0 < 10 ^ n := fun n => Nat.pow_pos (by decide)
  unfold decimal
  rcases frac k v with ⟨h1, h2⟩ | ⟨h1, j, f, h2, h3, h4⟩
  · refine ⟨v / 10 ^ k, none, ?_, fun total bs => ?_⟩
    · simp only [amount, Option.bind_some, Option.getD_none, Nat.pow_zero, Nat.mod_one, Nat.div_one,
        if_true]
      rw [Nat.mul_comm]; congr 1; omega
    · rw [h1]
      simp only [List.append_nil]
      exact read_digits total 20 _ hv (by decide) bs
  · refine ⟨v / 10 ^ k * 10 ^ j + f, some j, ?_, fun total bs => ?_⟩
    · have e : (v / 10 ^ k * 10 ^ j + f) * 10 ^ k = v * 10 ^ j := by
        have e1 : 10 ^ k = 10 ^ (k - j) * 10 ^ j := by rw [← Nat.pow_add]; congr 1; omega
        have e2 : (v / 10 ^ k * 10 ^ j + f) * 10 ^ (k - j) = v := by
          rw [Nat.add_mul, h3, Nat.mul_assoc, Nat.mul_comm (10 ^ j), ← e1, Nat.mul_comm]
          exact hd
        calc _ = (v / 10 ^ k * 10 ^ j + f) * (10 ^ (k - j) * 10 ^ j) := by rw [← e1]
          _ = _ := by rw [← Nat.mul_assoc, e2]
      simp only [amount, Option.bind_some, Option.getD_some, e, Nat.mul_mod_left, if_true,
        Nat.mul_div_cancel _ (pos j)]
    · cases e : fracDigits k v [] with
      | nil => exact absurd e h1
      | cons x xs =>
        rw [List.append_assoc, read_digits total 20 _ hv (by decide)]
        show readParts total (some _) none (46 :: (x :: xs ++ bs)) = _
        rw [← e, readParts]
        rw [if_pos rfl, h4]

theorem read_sign {bs : Bytes} {n : Nat} (hn : bs ≠ []) (h : readParts 0 none none bs = some n)
    (d : Int) (hd : d.natAbs = n) :
    readDuration ((if d < 0 then [45] else []) ++ bs) = some d := by
  split
  · simp only [List.singleton_append, readDuration, hn, if_false, h, Option.map_some]
    congr 1; omega
  · rw [List.nil_append, readDuration.eq_def]
    split
    · exact absurd rfl hn
    · rw [readParts.eq_def] at h; simp at h
    · rw [h, Option.map_some]; congr 1; omega

theorem digits_head (k m : Nat) (hk : 0 < k) :
    ∃ x, x < 10 ∧ ∃ rest, digits k m = UInt8.ofNat (48 + x) :: rest := by
  induction k generalizing m with
  | zero => omega
  | succ k ih =>
    rw [digits]
    split
    · rename_i h; exact ⟨m, h, [], rfl⟩
    · rcases Nat.eq_zero_or_pos k with rfl | h'
      · exact ⟨m % 10, Nat.mod_lt _ (by decide), [], rfl⟩
      · obtain ⟨x, h1, rest, h2⟩ := ih (m / 10) h'
        exact ⟨x, h1, rest ++ [UInt8.ofNat (48 + m % 10)], by rw [h2]; rfl⟩

theorem read_minute (total : Nat) (n k : Option Nat) (d : Nat) (hd : d < 10) (bs : Bytes) :
    readParts total n k (109 :: UInt8.ofNat (48 + d) :: bs) =
      (amount n (k.getD 0) 60000000000).bind fun x =>
        readParts (total + x) none none (UInt8.ofNat (48 + d) :: bs) := by
  have : d = 0 ∨ d = 1 ∨ d = 2 ∨ d = 3 ∨ d = 4 ∨ d = 5 ∨ d = 6 ∨ d = 7 ∨ d = 8 ∨ d = 9 := by omega
  rcases this with rfl | rfl | rfl | rfl | rfl | rfl | rfl | rfl | rfl | rfl <;>
    (rw [readParts.eq_def]; simp)

theorem amount_whole (n u : Nat) : amount (some n) 0 u = some (n * u) := by
  simp [amount, Nat.mod_one]

/-- A duration is read as what it was. -/
theorem read_durString (d : Int) (hd : d.natAbs < 10 ^ 20) : readDuration (durString d) = some d := by
  have ne : ∀ (a b : Bytes), b ≠ [] → a ++ b ≠ [] := fun a b hb h => hb (List.append_eq_nil_iff.1 h).2
  unfold durString
  dsimp only
  split
  · have : d = 0 := by omega
    subst this; decide
  split
  · rw [List.append_assoc]
    refine read_sign (ne _ _ (by simp)) (n := d.natAbs) ?_ d rfl
    rw [read_digits _ 20 _ hd (by decide)]
    simp [readParts, amount_whole]
  split
  · obtain ⟨n, j, h1, h2⟩ := read_decimal 3 d.natAbs (by omega)
    rw [List.append_assoc]
    refine read_sign (ne _ _ (by simp)) (n := d.natAbs) ?_ d rfl
    rw [h2, readParts]
    rw [show 10 ^ 3 = 1000 from rfl] at h1
    simp [h1, readParts]
  split
  · obtain ⟨n, j, h1, h2⟩ := read_decimal 6 d.natAbs (by omega)
    rw [List.append_assoc]
    refine read_sign (ne _ _ (by simp)) (n := d.natAbs) ?_ d rfl
    rw [h2, readParts]
    rw [show 10 ^ 6 = 1000000 from rfl] at h1
    simp [h1, readParts]
  obtain ⟨n, j, h1, h2⟩ := read_decimal 9 (d.natAbs % 60000000000) (by omega)
  rw [show 10 ^ 9 = 1000000000 from rfl] at h1
  have secs : ∀ total, readParts total none none (decimal 9 (d.natAbs % 60000000000) ++ [115]) =
      some (total + d.natAbs % 60000000000) := by
    intro total
    rw [h2, readParts]
    simp [h1, readParts]
  have mins : ∀ total m, m < 60 → readParts total none none
      (digits 20 m ++ ([109] ++ (decimal 9 (d.natAbs % 60000000000) ++ [115]))) =
      some (total + m * 60000000000 + d.natAbs % 60000000000) := by
    intro total m hm
    rw [read_digits _ 20 _ (by omega) (by decide), List.singleton_append]
    obtain ⟨x, hx, rest, he⟩ := digits_head 20 (d.natAbs % 60000000000 / 10 ^ 9) (by decide)
    have h3 := secs (total + m * 60000000000)
    unfold decimal at h3 ⊢
    rw [he] at h3 ⊢
    rw [List.cons_append, List.cons_append] at h3 ⊢
    rw [read_minute _ _ _ _ hx]
    simp only [Option.getD_none, amount_whole, Option.bind_some]
    exact h3
  split
  · refine read_sign (ne _ _ (by simp)) (n := d.natAbs % 60000000000) ?_ d (by omega)
    rw [secs]; simp
  split
  · rw [List.append_assoc]
    refine read_sign (ne _ _ (by simp)) (mins 0 _ (Nat.mod_lt _ (by decide))) d (by omega)
  · simp only [List.append_assoc]
    refine read_sign (ne _ _ (by simp)) (n := d.natAbs) ?_ d rfl
    rw [read_digits _ 20 _ (by omega) (by decide), List.singleton_append, readParts]
    simp only [Option.getD_none, amount_whole, Option.bind_some]
    rw [mins _ _ (Nat.mod_lt _ (by decide))]
    congr 1; omega

end Comfo.Props
