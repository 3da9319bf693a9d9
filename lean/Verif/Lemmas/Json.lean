import Verif.Spec.Json
/-!
# The reader accepts exactly JSON
-/
namespace Comfo.Json
open Spec Comfo.Pb Comfo.Twirp

theorem isDigit_iff {b : UInt8} : isDigit b = true ↔ 48 ≤ b ∧ b ≤ 57 := by
  simp [isDigit]

theorem isWs_iff {b : UInt8} : isWs b = true ↔ b = 32 ∨ b = 9 ∨ b = 10 ∨ b = 13 := by
  simp [isWs, or_assoc]

/-! ## White space and digits -/

/-- A list does not begin with such a byte. -/
def Stops (p : UInt8 → Bool) (r : Bytes) : Prop := ∀ b, r.head? = some b → p b = false

theorem stops_nil (p : UInt8 → Bool) : Stops p [] := nofun

theorem stops_cons {p : UInt8 → Bool} {b : UInt8} {r : Bytes} : Stops p (b :: r) ↔ p b = false := by
  simp [Stops]

theorem span_append {p : UInt8 → Bool} {a r : Bytes} (ha : ∀ b ∈ a, p b = true) (hr : Stops p r) :
    (a ++ r).takeWhile p = a ∧ (a ++ r).dropWhile p = r := by
  induction a with
  | nil =>
    cases r with
    | nil => simp
    | cons b r => simp [stops_cons.1 hr]
  | cons b a ih =>
    obtain ⟨h1, h2⟩ := ih fun x hx => ha x (List.mem_cons_of_mem _ hx)
    have := ha b (List.mem_cons_self ..)
    simp [this, h1, h2]

theorem span_split (p : UInt8 → Bool) (bs : Bytes) :
    bs = bs.takeWhile p ++ bs.dropWhile p ∧ (∀ b ∈ bs.takeWhile p, p b = true) ∧
      Stops p (bs.dropWhile p) := by
  refine ⟨List.takeWhile_append_dropWhile.symm, fun b hb => ?_, ?_⟩
  · induction bs with
    | nil => simp at hb
    | cons x bs ih =>
      rw [List.takeWhile_cons] at hb
      split at hb
      · rcases List.mem_cons.1 hb with rfl | hb
        · assumption
        · exact ih hb
      · cases hb
  · induction bs with
    | nil => exact stops_nil _
    | cons x bs ih =>
      rw [List.dropWhile_cons]
      split
      · exact ih
      · rename_i hx
        rw [stops_cons]
        exact Bool.eq_false_iff.2 hx

theorem skip_ws {w r : Bytes} (hw : Ws w) (hr : Stops isWs r) : skipWs (w ++ r) = r :=
  (span_append (fun b hb => isWs_iff.2 (hw b hb)) hr).2

theorem ws_split (bs : Bytes) : ∃ w, Ws w ∧ bs = w ++ skipWs bs ∧ Stops isWs (skipWs bs) :=
  ⟨_, fun b hb => isWs_iff.1 ((span_split isWs bs).2.1 b hb), (span_split isWs bs).1,
    (span_split isWs bs).2.2⟩

/-! ## Numbers -/

/-- What may follow a value. -/
def Follow (r : Bytes) : Prop := Stops notDelim r

theorem follow_digit {r : Bytes} (h : Follow r) : Stops isDigit r := by
  intro b hb
  have := h b hb
  simp only [notDelim, Bool.or_eq_false_iff] at this
  exact this.1.1.1.1.1.1

theorem natOf_eq (ds : Bytes) : natOf ds = decimalValue ds := rfl

theorem digits_all {ds : Bytes} (h : Digits ds) : ∀ b ∈ ds, isDigit b = true :=
  fun b hb => isDigit_iff.2 (h b hb)

theorem fraction_ok {f ft r : Bytes} (h : FracPart f ft) (hr : Stops isDigit r) (hp : r.head? ≠ some 46) :
    fraction (ft ++ r) = some (f, r) := by
  cases h with
  | none =>
    unfold fraction
    cases r with
    | nil => rfl
    | cons b r =>
      simp only [List.nil_append]
      split
      · rename_i heq
        cases heq
        exact absurd rfl hp
      · rfl
  | some hne hd =>
    obtain ⟨h1, h2⟩ := span_append (digits_all hd) hr
    simp [fraction, h1, h2, hne]

theorem fraction_sound {bs f r : Bytes} (h : fraction bs = some (f, r)) (hb : Stops isDigit bs) :
    ∃ ft, FracPart f ft ∧ bs = ft ++ r ∧ Stops isDigit r := by
  unfold fraction at h
  split at h
  · rename_i s
    split at h
    · cases h
    · rename_i hne
      cases h
      obtain ⟨h1, h2, h3⟩ := span_split isDigit s
      exact ⟨_, .some hne fun d hd => isDigit_iff.1 (h2 d hd), by rw [List.cons_append, ← h1], h3⟩
  · cases h
    exact ⟨[], .none, rfl, hb⟩

theorem expDigits_ok {sgn ds r : Bytes} {neg : Bool} (hs : (neg = false ∧ (sgn = [] ∨ sgn = [43])) ∨
    (neg = true ∧ sgn = [45])) (hne : ds ≠ []) (hd : Digits ds) (hr : Stops isDigit r) :
    expDigits (sgn ++ (ds ++ r)) =
      some (if neg then -(decimalValue ds : Int) else decimalValue ds, r) := by
  obtain ⟨h1, h2⟩ := span_append (digits_all hd) hr
  have hsg : expSign (sgn ++ (ds ++ r)) = (neg, ds ++ r) := by
    rcases hs with ⟨rfl, rfl | rfl⟩ | ⟨rfl, rfl⟩
    · cases ds with
      | nil => exact absurd rfl hne
      | cons d ds =>
        have := hd d (List.mem_cons_self ..)
        simp only [List.nil_append, List.cons_append]
        unfold expSign
        split
        · rename_i heq; cases heq; exact absurd this.1 (by decide)
        · rename_i heq; cases heq; exact absurd this.1 (by decide)
        · rfl
    · rfl
    · rfl
  simp only [expDigits, hsg, h1, h2, hne, if_false]
  rfl

theorem expDigits_sound {bs r : Bytes} {e : Int} (h : expDigits bs = some (e, r)) :
    ∃ sgn ds neg, ((neg = false ∧ (sgn = [] ∨ sgn = [43])) ∨ (neg = true ∧ sgn = [45])) ∧
      ds ≠ [] ∧ Digits ds ∧ bs = sgn ++ (ds ++ r) ∧ Stops isDigit r ∧
      e = if neg then -(decimalValue ds : Int) else decimalValue ds := by
  have hsg : ∃ sgn, ((expSign bs).1 = false ∧ (sgn = [] ∨ sgn = [43]) ∨
      (expSign bs).1 = true ∧ sgn = [45]) ∧ bs = sgn ++ (expSign bs).2 := by
    unfold expSign
    split
    · exact ⟨[43], .inl ⟨rfl, .inr rfl⟩, rfl⟩
    · exact ⟨[45], .inr ⟨rfl, rfl⟩, rfl⟩
    · exact ⟨[], .inl ⟨rfl, .inl rfl⟩, rfl⟩
  obtain ⟨sgn, hs, hb⟩ := hsg
  simp only [expDigits] at h
  split at h
  · cases h
  · rename_i hne
    cases h
    obtain ⟨h1, h2, h3⟩ := span_split isDigit (expSign bs).2
    refine ⟨sgn, _, _, hs, hne, fun d hd => isDigit_iff.1 (h2 d hd), ?_, h3, rfl⟩
    rw [← h1]
    exact hb

theorem exponent_ok {e : Int} {et r : Bytes} (h : ExpPart e et) (hr : Follow r) :
    exponent (et ++ r) = some (e, r) := by
  have hd := follow_digit hr
  cases h with
  | none =>
    unfold exponent
    simp only [List.nil_append]
    split
    · exact absurd (hr 101 rfl) (by decide)
    · exact absurd (hr 69 rfl) (by decide)
    · rfl
  | plus he hs hne hds =>
    have := expDigits_ok (neg := false) (.inl ⟨rfl, hs⟩) hne hds hd
    rcases he with rfl | rfl
    · simpa [exponent] using this
    · simpa [exponent] using this
  | minus he hne hds =>
    have := expDigits_ok (neg := true) (.inr ⟨rfl, rfl⟩) hne hds hd
    rcases he with rfl | rfl
    · simpa [exponent] using this
    · simpa [exponent] using this

theorem exponent_sound {e : Int} {bs r : Bytes} (h : exponent bs = some (e, r)) :
    ∃ et, ExpPart e et ∧ bs = et ++ r := by
  have key : ∀ x s, x = 101 ∨ x = 69 → expDigits s = some (e, r) → ∃ et, ExpPart e et ∧ x :: s = et ++ r := by
    intro x s hx h
    obtain ⟨sgn, ds, neg, hs, hne, hd, hb, -, he⟩ := expDigits_sound h
    rcases hs with ⟨rfl, hs⟩ | ⟨rfl, rfl⟩
    · exact ⟨_, by rw [he]; exact .plus hx hs hne hd, by simp [hb]⟩
    · exact ⟨_, by rw [he]; exact .minus hx hne hd, by simp [hb]⟩
  unfold exponent at h
  split at h
  · exact key _ _ (.inl rfl) h
  · exact key _ _ (.inr rfl) h
  · cases h; exact ⟨[], .none, rfl⟩

theorem intPart_iff {ip : Bytes} (hd : Digits ip) :
    IntPart ip ↔ ¬ (ip = [] ∨ (ip.head? = some 48 ∧ ip.length ≠ 1)) := by
  constructor
  · intro h
    cases h with
    | zero => simp
    | more h1 h2 h3 =>
      rintro (h | ⟨h, -⟩)
      · cases h
      · cases h; exact absurd h1 (by decide)
  · intro h
    cases ip with
    | nil => exact absurd (.inl rfl) h
    | cons d ds =>
      by_cases h0 : d = 48
      · subst h0
        cases ds with
        | nil => exact .zero
        | cons x ds => exact absurd (.inr ⟨rfl, by simp⟩) h
      · have h1 := hd d (List.mem_cons_self ..)
        refine .more ?_ h1.2 fun x hx => hd x (List.mem_cons_of_mem _ hx)
        have h2 : (48 : UInt8).toNat ≤ d.toNat := h1.1
        have h3 : d.toNat ≠ 48 := fun h => h0 (UInt8.toNat_inj.1 (by simpa using h))
        show (49 : UInt8).toNat ≤ d.toNat
        simp at h2 ⊢
        omega

theorem intPart_digits {ip : Bytes} (h : IntPart ip) : Digits ip := by
  cases h with
  | zero => intro d hd; simp only [List.mem_singleton] at hd; subst hd; decide
  | more h1 h2 h3 =>
    intro d hd
    rcases List.mem_cons.1 hd with rfl | hd
    · refine ⟨?_, h2⟩
      have : (49 : UInt8).toNat ≤ d.toNat := h1
      show (48 : UInt8).toNat ≤ d.toNat
      simp at this ⊢
      omega
    · exact h3 d hd

theorem frac_stops {f ft et r : Bytes} {e : Int} (hf : FracPart f ft) (he : ExpPart e et) (hr : Follow r) :
    Stops isDigit (et ++ r) ∧ (et ++ r).head? ≠ some 46 ∧ Stops isDigit (ft ++ (et ++ r)) := by
  have h1 : Stops isDigit (et ++ r) ∧ (et ++ r).head? ≠ some 46 := by
    cases he with
    | none =>
      refine ⟨follow_digit hr, fun h => ?_⟩
      have := hr 46 h
      revert this; decide
    | plus h =>
      rcases h with rfl | rfl <;> simp [stops_cons] <;> decide
    | minus h =>
      rcases h with rfl | rfl <;> simp [stops_cons] <;> decide
  refine ⟨h1.1, h1.2, ?_⟩
  cases hf with
  | none => exact h1.1
  | some => rw [List.cons_append, stops_cons]; decide

theorem minus_ok {neg : Bool} {i r : Bytes} (hi : IntPart i) :
    minus ((if neg then [45] else []) ++ (i ++ r)) = (neg, i ++ r) := by
  cases neg with
  | true => rfl
  | false =>
    cases hi with
    | zero => rfl
    | more h1 h2 _ =>
      simp only [Bool.false_eq_true, if_false, List.nil_append, List.cons_append]
      unfold minus
      split
      · rename_i heq; cases heq; exact absurd h1 (by decide)
      · rfl

theorem number_ok {n : Num} {t r : Bytes} (h : NumText n t) (hr : Follow r) :
    number (t ++ r) = some (n, r) := by
  obtain ⟨hi, hf, he⟩ := h
  rename_i neg i f ft e et
  obtain ⟨h1, h2, h3⟩ := frac_stops hf he hr
  obtain ⟨h4, h5⟩ := span_append (digits_all (intPart_digits hi)) h3
  have h6 := (intPart_iff (intPart_digits hi)).1 hi
  have hm := minus_ok (neg := neg) (r := ft ++ (et ++ r)) hi
  have hany : r.head?.any notDelim = false := by
    cases r with
    | nil => rfl
    | cons b r => exact stops_cons.1 hr
  have e0 : (if neg then [45] else []) ++ i ++ ft ++ et ++ r =
      (if neg then [45] else []) ++ (i ++ (ft ++ (et ++ r))) := by simp
  unfold number
  rw [e0, hm]
  simp only [h4, h5, if_neg h6, fraction_ok hf h1 h2, exponent_ok he hr, hany, Bool.false_eq_true,
    if_false]
  rfl

theorem number_sound {n : Num} {bs r : Bytes} (h : number bs = some (n, r)) :
    ∃ t, NumText n t ∧ bs = t ++ r ∧ Follow r := by
  have hm : bs = (if (minus bs).1 then [45] else []) ++ (minus bs).2 := by
    unfold minus; split <;> rfl
  unfold number at h
  simp only at h
  split at h
  · cases h
  · rename_i hi
    obtain ⟨h1, h2, h3⟩ := span_split isDigit (minus bs).2
    have hd : Digits ((minus bs).2.takeWhile isDigit) := fun d hd => isDigit_iff.1 (h2 d hd)
    split at h
    · cases h
    · rename_i fp s hfr
      obtain ⟨ft, hf, hs, -⟩ := fraction_sound hfr h3
      split at h
      · cases h
      · rename_i e s' hex
        obtain ⟨et, he, hs'⟩ := exponent_sound hex
        split at h
        · cases h
        · rename_i hany
          cases h
          refine ⟨_, .mk (neg := (minus bs).1) ((intPart_iff hd).2 hi) hf he, ?_, ?_⟩
          · rw [List.append_assoc, ← hs', List.append_assoc, ← hs, List.append_assoc, ← h1]
            exact hm
          · intro b hb
            rw [hb] at hany
            simpa using hany

/-! ## Strings -/

theorem utf8_eq (n : Nat) : utf8Of n = utf8Full n := by
  unfold utf8Of utf8Full utf8
  by_cases h1 : n < 0x80
  · simp [h1, show n < 0x10000 by omega]
  · by_cases h2 : n < 0x800
    · simp [h1, h2, show n < 0x10000 by omega]
    · simp only [h1, h2, if_false]

theorem hexVal_iff {b : UInt8} {n : Nat} : hexVal b = some n ↔ HexDigit n b := by
  unfold hexVal HexDigit
  simp only [UInt8.le_iff_toNat_le, UInt8.reduceToNat]
  split
  · simp only [Option.some.injEq]; omega
  · split
    · simp only [Option.some.injEq]; omega
    · split
      · simp only [Option.some.injEq]; omega
      · simp only [reduceCtorEq, false_iff]; omega

theorem hex4_iff {a b c d : UInt8} {n : Nat} :
    hex4 a b c d = some n ↔ UEscape n [92, 117, a, b, c, d] := by
  constructor
  · intro h
    unfold hex4 at h
    split at h
    · rename_i x y z w hx hy hz hw
      cases h
      exact .mk (hexVal_iff.1 hx) (hexVal_iff.1 hy) (hexVal_iff.1 hz) (hexVal_iff.1 hw)
    · cases h
  · intro h
    cases h with
    | mk h1 h2 h3 h4 =>
      simp [hex4, hexVal_iff.2 h1, hexVal_iff.2 h2, hexVal_iff.2 h3, hexVal_iff.2 h4]

theorem escape_iff {e b : UInt8} : escape e = some b ↔ (e, b) ∈ shortEscapes := by
  unfold escape shortEscapes
  constructor
  · intro h
    split at h
    · rename_i he
      cases h
      rcases he with rfl | rfl | rfl <;> decide
    · repeat (split at h; · subst_vars; cases h; decide)
      cases h
  · intro h
    simp only [List.mem_cons, Prod.mk.injEq, List.not_mem_nil, or_false] at h
    rcases h with ⟨rfl, rfl⟩ | ⟨rfl, rfl⟩ | ⟨rfl, rfl⟩ | ⟨rfl, rfl⟩ | ⟨rfl, rfl⟩ | ⟨rfl, rfl⟩ |
      ⟨rfl, rfl⟩ | ⟨rfl, rfl⟩ <;> rfl

theorem escape_ne {e b : UInt8} (h : escape e = some b) : e ≠ 117 := by
  rintro rfl
  have : escape 117 = none := rfl
  rw [this] at h
  cases h

theorem uescape_form {n : Nat} {u : Bytes} (h : UEscape n u) :
    ∃ a b c d, u = [92, 117, a, b, c, d] ∧ hex4 a b c d = some n := by
  cases h with
  | mk h1 h2 h3 h4 => exact ⟨_, _, _, _, rfl, hex4_iff.2 (.mk h1 h2 h3 h4)⟩

theorem lowHalf_iff {bs r : Bytes} {n : Nat} :
    lowHalf bs = some (n, r) ↔ 0xDC00 ≤ n ∧ n < 0xE000 ∧ ∃ u, UEscape n u ∧ bs = u ++ r := by
  constructor
  · intro h
    unfold lowHalf at h
    split at h
    · split at h
      · rename_i hx
        split at h
        · rename_i hn
          cases h
          exact ⟨hn.1, hn.2, _, hex4_iff.1 hx, rfl⟩
        · cases h
      · cases h
    · cases h
  · rintro ⟨h1, h2, u, hu, rfl⟩
    obtain ⟨a, b, c, d, rfl, hx⟩ := uescape_form hu
    simp [lowHalf, hx, h1, h2]

theorem chars_ok {s u : Bytes} (h : Chars s u) (r : Bytes) :
    ∀ n, u.length < n → chars true n (u ++ 34 :: r) = some (s, r) := by
  induction h with
  | nil =>
    intro n hn
    cases n with
    | zero => exact absurd hn (Nat.not_lt_zero _)
    | succ n => simp [chars]
  | plain h1 h2 h3 _ ih =>
    intro n hn
    cases n with
    | zero => exact absurd hn (Nat.not_lt_zero _)
    | succ n =>
      have := ih n (by simp at hn; omega)
      rw [List.cons_append, chars.eq_def]
      simp only [h2, if_false, UInt8.not_lt.2 h1, ne_eq, h3, not_false_eq_true, if_true, this,
        Option.map_some]
  | esc h1 _ ih =>
    rename_i e b s t _
    intro n hn
    cases n with
    | zero => exact absurd hn (Nat.not_lt_zero _)
    | succ n =>
      have := ih n (by simp at hn; omega)
      have he := escape_iff.2 h1
      have hne := escape_ne he
      rw [List.cons_append, List.cons_append, chars.eq_def]
      simp only [show ((92 : UInt8) = 34) = False from by simp, if_false,
        show ((92 : UInt8) < 32) = False from by simp, ne_eq, not_true_eq_false]
      split
      · rename_i heq; exact absurd (List.cons.inj heq).1 hne
      · rename_i heq; obtain ⟨rfl, rfl⟩ := List.cons.inj heq; simp [he, this]
      · rename_i heq; cases heq
  | unicode h1 h2 _ ih =>
    intro n hn
    obtain ⟨a, b, c, d, rfl, hx⟩ := uescape_form h1
    cases n with
    | zero => exact absurd hn (Nat.not_lt_zero _)
    | succ n =>
      have := ih n (by simp at hn; omega)
      simp only [List.cons_append, List.nil_append]
      rw [chars.eq_def]
      simp [hx, h2, this, utf8_eq]
  | pair h1 h2 h3 h4 _ ih =>
    intro n hn
    rename_i x y u v s t _
    obtain ⟨a, b, c, d, rfl, hx⟩ := uescape_form h1
    cases n with
    | zero => exact absurd hn (Nat.not_lt_zero _)
    | succ n =>
      have hv : v.length = 6 := by obtain ⟨_, _, _, _, rfl, -⟩ := uescape_form h2; rfl
      have := ih n (by simp [hv] at hn; omega)
      have hl : lowHalf (v ++ (t ++ 34 :: r)) = some (0xDC00 + y, t ++ 34 :: r) :=
        lowHalf_iff.2 ⟨by omega, by omega, v, h2, rfl⟩
      simp only [List.cons_append, List.nil_append, List.append_assoc]
      rw [chars.eq_def]
      have e1 : ¬ (0xD800 + x < 0xD800 ∨ 0xE000 ≤ 0xD800 + x) := by omega
      have e2 : 0xD800 + x < 0xDC00 := by omega
      have e3 : 0x10000 + (0xD800 + x - 0xD800) * 1024 + (0xDC00 + y - 0xDC00) =
        0x10000 + 1024 * x + y := by omega
      simp only [show ((92 : UInt8) = 34) = False from by simp, if_false,
        show ((92 : UInt8) < 32) = False from by simp, ne_eq, not_true_eq_false, hx, e1, e2, if_true,
        hl, this, Option.map_some, e3, utf8_eq]

theorem pair_eq {x y : Nat} {u v s t : Bytes} (h1 : UEscape (0xD800 + x) u)
    (h2 : UEscape (0xDC00 + y) v) (hx : x < 1024) (hy : y < 1024) (h : Chars s t) :
    Chars (utf8Of (0x10000 + (0xD800 + x - 0xD800) * 1024 + (0xDC00 + y - 0xDC00)) ++ s)
      (u ++ (v ++ t)) := by
  have e : 0x10000 + (0xD800 + x - 0xD800) * 1024 + (0xDC00 + y - 0xDC00) = 0x10000 + 1024 * x + y := by
    omega
  rw [e, utf8_eq]
  exact .pair h1 h2 hx hy h

theorem chars_sound {n : Nat} : ∀ {bs s r : Bytes}, chars true n bs = some (s, r) →
    ∃ u, Chars s u ∧ bs = u ++ 34 :: r := by
  induction n with
  | zero => intro bs s r h; cases h
  | succ n ih =>
    intro bs s r h
    cases bs with
    | nil => cases h
    | cons b bs =>
      rw [chars.eq_def] at h
      simp only at h
      split at h
      · rename_i hb; subst hb; cases h; exact ⟨[], .nil, rfl⟩
      · rename_i h34
        split at h
        · cases h
        · rename_i h32
          split at h
          · rename_i h92
            rw [Option.map_eq_some_iff] at h
            obtain ⟨⟨s', r'⟩, h, he⟩ := h
            cases he
            obtain ⟨u, hu, rfl⟩ := ih h
            exact ⟨b :: u, .plain (UInt8.not_lt.1 h32) h34 h92 hu, rfl⟩
          · rename_i h92
            have h92 : b = 92 := Classical.not_not.1 h92
            subst h92
            split at h
            · split at h
              · cases h
              · rename_i c hx
                split at h
                · rename_i hc
                  rw [Option.map_eq_some_iff] at h
                  obtain ⟨⟨s', r'⟩, h, he⟩ := h
                  cases he
                  obtain ⟨u, hu, rfl⟩ := ih h
                  exact ⟨_, by rw [utf8_eq]; exact .unicode (hex4_iff.1 hx) hc hu, rfl⟩
                · rename_i hc
                  split at h
                  · rename_i d s' hl
                    split at hl
                    · rename_i hlt
                      rw [lowHalf_iff] at hl
                      obtain ⟨h1, h2, v, hv, rfl⟩ := hl
                      rw [Option.map_eq_some_iff] at h
                      obtain ⟨⟨s', r'⟩, h, he⟩ := h
                      obtain ⟨hs, rfl⟩ := Prod.mk.inj he
                      rw [← hs]
                      obtain ⟨u, hu, rfl⟩ := ih h
                      have hx' := hex4_iff.1 hx
                      obtain ⟨x, rfl⟩ : ∃ x, c = 0xD800 + x := ⟨c - 0xD800, by omega⟩
                      obtain ⟨y, rfl⟩ : ∃ y, d = 0xDC00 + y := ⟨d - 0xDC00, by omega⟩
                      have h3 : x < 1024 := by omega
                      have h4 : y < 1024 := by omega
                      exact ⟨_, pair_eq hx' hv h3 h4 hu, by simp⟩
                    · cases hl
                  · simp at h
            · split at h
              · cases h
              · rename_i c he
                rw [Option.map_eq_some_iff] at h
                obtain ⟨⟨s', r'⟩, h, he'⟩ := h
                cases he'
                obtain ⟨u, hu, rfl⟩ := ih h
                exact ⟨_, .esc (escape_iff.1 he) hu, rfl⟩
            · cases h

theorem string_ok {s t : Bytes} (h : StrText s t) (r : Bytes) :
    ∃ u, t = 34 :: u ∧ string true (u ++ r) = some (s, r) := by
  obtain ⟨hv, u, hu, rfl⟩ := h
  refine ⟨u ++ [34], rfl, ?_⟩
  rw [List.append_assoc, List.singleton_append, string, chars_ok hu r _ (by simp)]
  simp [hv]

theorem string_sound {bs s r : Bytes} (h : string true bs = some (s, r)) :
    ∃ u, StrText s (34 :: u) ∧ bs = u ++ r := by
  unfold string at h
  split at h
  · cases h
  · rename_i s' r' hc
    split at h
    · rename_i hv
      cases h
      obtain ⟨u, hu, hb⟩ := chars_sound hc
      exact ⟨u ++ [34], ⟨hv, u, hu, rfl⟩, by simp [hb]⟩
    · simp at h

/-! ## Values -/

/-- How a number begins. -/
theorem num_head {n : Num} {t : Bytes} (h : NumText n t) :
    ∃ b t', t = b :: t' ∧ (b = 45 ∨ isDigit b = true) := by
  obtain ⟨hi, -, -⟩ := h
  rename_i neg i f ft e et
  cases neg with
  | true => exact ⟨45, i ++ ft ++ et, by simp, .inl rfl⟩
  | false =>
    have hd := intPart_digits hi
    cases i with
    | nil => cases hi
    | cons d ds =>
      exact ⟨d, ds ++ ft ++ et, by simp, .inr (isDigit_iff.2 (hd d (List.mem_cons_self ..)))⟩

theorem digit_ne {b c : UInt8} (h : b = 45 ∨ isDigit b = true) (hc : c ≠ 45) (hd : isDigit c = false) :
    b ≠ c := by
  rintro rfl
  rcases h with h | h
  · exact hc h
  · rw [h] at hd; cases hd

theorem scalar_ok {v : Json} {t r : Bytes} (h : Scalar v t) (hr : Follow r) :
    scalar true (t ++ r) = some (v, r) := by
  cases h with
  | null => rfl
  | true => rfl
  | false => rfl
  | num hn =>
    obtain ⟨b, t', rfl, hb⟩ := num_head hn
    have := number_ok hn hr
    unfold scalar
    split
    · rename_i heq
      exact absurd (List.cons.inj heq).1 (digit_ne hb (by decide) (by decide))
    · rename_i heq
      exact absurd (List.cons.inj heq).1 (digit_ne hb (by decide) (by decide))
    · rename_i heq
      exact absurd (List.cons.inj heq).1 (digit_ne hb (by decide) (by decide))
    · rename_i heq
      exact absurd (List.cons.inj heq).1 (digit_ne hb (by decide) (by decide))
    · rw [this]; rfl
  | str hs =>
    obtain ⟨u, rfl, hu⟩ := string_ok hs r
    simp [scalar, hu]

theorem scalar_sound {v : Json} {bs r : Bytes} (h : scalar true bs = some (v, r)) :
    ∃ t, Scalar v t ∧ bs = t ++ r := by
  unfold scalar at h
  split at h
  · cases h; exact ⟨_, .null, rfl⟩
  · cases h; exact ⟨_, .true, rfl⟩
  · cases h; exact ⟨_, .false, rfl⟩
  · rw [Option.map_eq_some_iff] at h
    obtain ⟨⟨s, r'⟩, h, he⟩ := h
    cases he
    obtain ⟨u, hu, rfl⟩ := string_sound h
    exact ⟨_, .str hu, rfl⟩
  · rw [Option.map_eq_some_iff] at h
    obtain ⟨⟨s, r'⟩, h, he⟩ := h
    cases he
    obtain ⟨t, ht, rfl, -⟩ := number_sound h
    exact ⟨_, .num ht, rfl⟩

theorem scalar_head {v : Json} {t : Bytes} (h : Scalar v t) :
    ∃ b t', t = b :: t' ∧ isWs b = false ∧ b ≠ 123 ∧ b ≠ 91 ∧ b ≠ 93 := by
  cases h with
  | null => exact ⟨_, _, rfl, by decide⟩
  | true => exact ⟨_, _, rfl, by decide⟩
  | false => exact ⟨_, _, rfl, by decide⟩
  | num hn =>
    obtain ⟨b, t', rfl, hb⟩ := num_head hn
    refine ⟨b, t', rfl, ?_, digit_ne hb (by decide) (by decide), digit_ne hb (by decide) (by decide),
      digit_ne hb (by decide) (by decide)⟩
    rw [Bool.eq_false_iff, ne_eq, isWs_iff]
    rintro (h | h | h | h)
    · exact digit_ne hb (by decide) (by decide) h
    · exact digit_ne hb (by decide) (by decide) h
    · exact digit_ne hb (by decide) (by decide) h
    · exact digit_ne hb (by decide) (by decide) h
  | str hs =>
    obtain ⟨-, u, -, rfl⟩ := hs
    exact ⟨_, _, rfl, by decide⟩

theorem text_head {d : Nat} {v : Json} {t : Bytes} (h : Text d v t) :
    ∃ b t', t = b :: t' ∧ isWs b = false ∧ b ≠ 93 := by
  have key : Scalar v t → ∃ b t', t = b :: t' ∧ isWs b = false ∧ b ≠ 93 := by
    intro h
    obtain ⟨b, t', h1, h2, -, -, h3⟩ := scalar_head h
    exact ⟨b, t', h1, h2, h3⟩
  cases d with
  | zero => exact key h
  | succ d =>
    rcases h with h | ⟨l, u, -, rfl, -⟩ | ⟨l, u, -, rfl, -⟩
    · exact key h
    · exact ⟨_, _, rfl, by decide⟩
    · exact ⟨_, _, rfl, by decide⟩

theorem text_stops {d : Nat} {v : Json} {t r : Bytes} (h : Text d v t) : Stops isWs (t ++ r) := by
  obtain ⟨b, t', rfl, hb, -⟩ := text_head h
  exact stops_cons.2 hb

theorem ws_follow {w r : Bytes} (hw : Ws w) (hr : Follow r) : Follow (w ++ r) := by
  cases w with
  | nil => exact hr
  | cons b w =>
    rw [List.cons_append, Follow, stops_cons]
    rcases hw b (List.mem_cons_self ..) with rfl | rfl | rfl | rfl <;> rfl

theorem ws_follow_cons {w r : Bytes} {b : UInt8} (hw : Ws w) (hb : notDelim b = false) :
    Follow (w ++ b :: r) := ws_follow hw (stops_cons.2 hb)

/-- A reader of values does what the grammar says. -/
structure Reads (p : Bytes → Option (Json × Bytes)) (T : Json → Bytes → Prop) : Prop where
  ok : ∀ {v t r}, T v t → Follow r → p (t ++ r) = some (v, r)
  sound : ∀ {v bs r}, p bs = some (v, r) → ∃ t, T v t ∧ bs = t ++ r
  head : ∀ {v t}, T v t → ∃ b t', t = b :: t' ∧ isWs b = false ∧ b ≠ 93

theorem Reads.stops {p : Bytes → Option (Json × Bytes)} {T : Json → Bytes → Prop} (hp : Reads p T)
    {v : Json} {t r : Bytes} (h : T v t) : Stops isWs (t ++ r) := by
  obtain ⟨b, t', rfl, hb, -⟩ := hp.head h
  exact stops_cons.2 hb

theorem stops_lit {b : UInt8} {r : Bytes} (h : isWs b = false) : Stops isWs (b :: r) := stops_cons.2 h

theorem elems_ok {p : Bytes → Option (Json × Bytes)} {T : Json → Bytes → Prop} (hp : Reads p T)
    {l : List Json} {u : Bytes} (h : Elems T l u) (r : Bytes) :
    ∀ n, u.length < n + 1 → elems p n (u ++ 93 :: r) = some (l, r) := by
  induction h with
  | one h1 h2 h3 =>
    intro n hn
    cases n with
    | zero =>
      obtain ⟨b, t', rfl, -⟩ := hp.head h2
      simp at hn
    | succ n =>
      rw [elems.eq_def]
      simp only [List.append_assoc]
      rw [skip_ws h1 (hp.stops h2), hp.ok h2 (ws_follow_cons h3 rfl)]
      simp only [skip_ws h3 (stops_lit (b := 93) rfl)]
  | more h1 h2 h3 _ ih =>
    intro n hn
    cases n with
    | zero =>
      obtain ⟨b, t', rfl, -⟩ := hp.head h2
      simp at hn
    | succ n =>
      have := ih n (by simp at hn; omega)
      rw [elems.eq_def]
      simp only [List.append_assoc, List.cons_append]
      rw [skip_ws h1 (hp.stops h2), hp.ok h2 (ws_follow_cons h3 rfl)]
      simp only [skip_ws h3 (stops_lit (b := 44) rfl), this, Option.map_some]

theorem elems_sound {p : Bytes → Option (Json × Bytes)} {T : Json → Bytes → Prop} (hp : Reads p T)
    {n : Nat} : ∀ {bs r : Bytes} {l : List Json}, elems p n bs = some (l, r) →
      ∃ u, Elems T l u ∧ bs = u ++ 93 :: r := by
  induction n with
  | zero => intro bs r l h; cases h
  | succ n ih =>
    intro bs r l h
    rw [elems.eq_def] at h
    simp only at h
    split at h
    · cases h
    · rename_i v r1 hv
      obtain ⟨w, hw, hb, -⟩ := ws_split bs
      obtain ⟨t, ht, hb2⟩ := hp.sound hv
      obtain ⟨w', hw', hb', -⟩ := ws_split r1
      split at h
      · rename_i r2 hr2
        rw [Option.map_eq_some_iff] at h
        obtain ⟨⟨l', r'⟩, h, he⟩ := h
        cases he
        obtain ⟨u, hu, rfl⟩ := ih h
        exact ⟨_, .more hw ht hw' hu, by rw [hb, hb2, hb', hr2]; simp⟩
      · rename_i r2 hr2
        cases h
        exact ⟨_, .one hw ht hw', by rw [hb, hb2, hb', hr2]; simp⟩
      · cases h

theorem str_form {s t : Bytes} (h : StrText s t) : ∃ u, t = 34 :: u := by
  obtain ⟨-, u, -, rfl⟩ := h
  exact ⟨_, rfl⟩

theorem members_ok {p : Bytes → Option (Json × Bytes)} {T : Json → Bytes → Prop} (hp : Reads p T)
    {l : List (Bytes × Json)} {u : Bytes} (h : Members T l u) (r : Bytes) :
    ∀ n, u.length < n + 1 → members true p n (u ++ 125 :: r) = some (l, r) := by
  induction h with
  | one h1 h2 h3 h4 h5 h6 =>
    rename_i k v w1 nm w2 w3 t w4
    intro n hn
    cases n with
    | zero => simp at hn
    | succ n =>
      obtain ⟨u, rfl, hu⟩ := string_ok h2 (w2 ++ 58 :: (w3 ++ (t ++ (w4 ++ 125 :: r))))
      rw [members.eq_def]
      simp only [List.append_assoc, List.cons_append]
      rw [skip_ws h1 (stops_lit (b := 34) rfl)]
      simp only [hu, skip_ws h3 (stops_lit (b := 58) rfl), skip_ws h4 (hp.stops h5),
        hp.ok h5 (ws_follow_cons h6 (b := 125) rfl), skip_ws h6 (stops_lit (b := 125) rfl)]
  | more h1 h2 h3 h4 h5 h6 _ ih =>
    rename_i k v w1 nm w2 w3 t w4 l r' _
    intro n hn
    cases n with
    | zero => simp at hn
    | succ n =>
      have := ih n (by simp at hn; omega)
      obtain ⟨u, rfl, hu⟩ := string_ok h2 (w2 ++ 58 :: (w3 ++ (t ++ (w4 ++ 44 :: (r' ++ 125 :: r)))))
      rw [members.eq_def]
      simp only [List.append_assoc, List.cons_append]
      rw [skip_ws h1 (stops_lit (b := 34) rfl)]
      simp only [hu, skip_ws h3 (stops_lit (b := 58) rfl), skip_ws h4 (hp.stops h5),
        hp.ok h5 (ws_follow_cons h6 (b := 44) rfl), skip_ws h6 (stops_lit (b := 44) rfl), this,
        Option.map_some]

theorem members_sound {p : Bytes → Option (Json × Bytes)} {T : Json → Bytes → Prop} (hp : Reads p T)
    {n : Nat} : ∀ {bs r : Bytes} {l : List (Bytes × Json)}, members true p n bs = some (l, r) →
      ∃ u, Members T l u ∧ bs = u ++ 125 :: r := by
  induction n with
  | zero => intro bs r l h; cases h
  | succ n ih =>
    intro bs r l h
    rw [members.eq_def] at h
    simp only at h
    obtain ⟨w1, hw1, hb1, -⟩ := ws_split bs
    split at h
    · rename_i r0 hr0
      split at h
      · cases h
      · rename_i k r1 hk
        obtain ⟨u, hu, hbu⟩ := string_sound hk
        obtain ⟨w2, hw2, hb2, -⟩ := ws_split r1
        split at h
        · rename_i r2 hr2
          obtain ⟨w3, hw3, hb3, -⟩ := ws_split r2
          split at h
          · cases h
          · rename_i v r3 hv
            obtain ⟨t, ht, hbt⟩ := hp.sound hv
            obtain ⟨w4, hw4, hb4, -⟩ := ws_split r3
            split at h
            · rename_i r4 hr4
              rw [Option.map_eq_some_iff] at h
              obtain ⟨⟨l', r'⟩, h, he⟩ := h
              cases he
              obtain ⟨x, hx, rfl⟩ := ih h
              exact ⟨_, .more hw1 hu hw2 hw3 ht hw4 hx, by
                rw [hb1, hr0, hbu, hb2, hr2, hb3, hbt, hb4, hr4]; simp⟩
            · rename_i r4 hr4
              cases h
              exact ⟨_, .one hw1 hu hw2 hw3 ht hw4, by
                rw [hb1, hr0, hbu, hb2, hr2, hb3, hbt, hb4, hr4]; simp⟩
            · cases h
        · cases h
    · cases h

theorem elems_first {p : Bytes → Option (Json × Bytes)} {T : Json → Bytes → Prop} (hp : Reads p T)
    {l : List Json} {u : Bytes} (h : Elems T l u) (r : Bytes) :
    ∃ b r', skipWs (u ++ r) = b :: r' ∧ b ≠ 93 := by
  cases h with
  | one h1 h2 h3 =>
    rw [List.append_assoc, List.append_assoc, skip_ws h1 (hp.stops h2)]
    obtain ⟨b, t', rfl, -, hb⟩ := hp.head h2
    exact ⟨b, _, rfl, hb⟩
  | more h1 h2 h3 =>
    rw [List.append_assoc, List.append_assoc, skip_ws h1 (hp.stops h2)]
    obtain ⟨b, t', rfl, -, hb⟩ := hp.head h2
    exact ⟨b, _, rfl, hb⟩

theorem members_first {T : Json → Bytes → Prop} {l : List (Bytes × Json)} {u : Bytes}
    (h : Members T l u) (r : Bytes) : ∃ r', skipWs (u ++ r) = 34 :: r' := by
  cases h with
  | one h1 h2 h3 =>
    obtain ⟨t, rfl⟩ := str_form h2
    rw [List.append_assoc, List.append_assoc, List.cons_append,
      skip_ws h1 (stops_lit (b := 34) rfl)]
    exact ⟨_, rfl⟩
  | more h1 h2 h3 =>
    obtain ⟨t, rfl⟩ := str_form h2
    rw [List.append_assoc, List.append_assoc, List.cons_append,
      skip_ws h1 (stops_lit (b := 34) rfl)]
    exact ⟨_, rfl⟩

theorem value_reads : ∀ d, Reads (value true d) (Text d)
  | 0 => ⟨scalar_ok, scalar_sound, text_head⟩
  | d + 1 => by
    have hp := value_reads d
    refine ⟨?_, ?_, text_head⟩
    · intro v t r h hr
      rcases h with h | ⟨l, u, rfl, rfl, h⟩ | ⟨l, u, rfl, rfl, h⟩
      · obtain ⟨b, t', rfl, -, h1, h2, -⟩ := scalar_head h
        have := scalar_ok h hr
        rw [List.cons_append] at this ⊢
        rw [value.eq_def]
        simp only
        split
        · rename_i heq; exact absurd (List.cons.inj heq).1 h1
        · rename_i heq; exact absurd (List.cons.inj heq).1 h2
        · exact this
      · rw [List.cons_append, List.append_assoc, List.singleton_append, value.eq_def]
        simp only
        rcases h with ⟨rfl, hu⟩ | h
        · simp only [skip_ws hu (stops_lit (b := 93) rfl)]
        · obtain ⟨b, r', hs, hb⟩ := elems_first hp h (93 :: r)
          have := elems_ok hp h r (u ++ 93 :: r).length (by simp; omega)
          rw [hs]
          split
          · rename_i heq; exact absurd (List.cons.inj heq).1 hb
          · rw [this]; rfl
      · rw [List.cons_append, List.append_assoc, List.singleton_append, value.eq_def]
        simp only
        rcases h with ⟨rfl, hu⟩ | h
        · simp only [skip_ws hu (stops_lit (b := 125) rfl)]
        · obtain ⟨r', hs⟩ := members_first h (125 :: r)
          have := members_ok hp h r (u ++ 125 :: r).length (by simp; omega)
          rw [hs]
          split
          · rename_i heq; exact absurd (List.cons.inj heq).1 (by decide)
          · rw [this]; rfl
    · intro v bs r h
      rw [value.eq_def] at h
      simp only at h
      split at h
      · rename_i bs
        split at h
        · rename_i r' hs
          cases h
          obtain ⟨w, hw, hb, -⟩ := ws_split bs
          rw [hs] at hb
          exact ⟨_, .inr (.inr ⟨[], w, rfl, rfl, .inl ⟨rfl, hw⟩⟩), by rw [hb]; simp⟩
        · rw [Option.map_eq_some_iff] at h
          obtain ⟨⟨l, r'⟩, h, he⟩ := h
          cases he
          obtain ⟨u, hu, rfl⟩ := members_sound hp h
          exact ⟨_, .inr (.inr ⟨l, u, rfl, rfl, .inr hu⟩), by simp⟩
      · rename_i bs
        split at h
        · rename_i r' hs
          cases h
          obtain ⟨w, hw, hb, -⟩ := ws_split bs
          rw [hs] at hb
          exact ⟨_, .inr (.inl ⟨[], w, rfl, rfl, .inl ⟨rfl, hw⟩⟩), by rw [hb]; simp⟩
        · rw [Option.map_eq_some_iff] at h
          obtain ⟨⟨l, r'⟩, h, he⟩ := h
          cases he
          obtain ⟨u, hu, rfl⟩ := elems_sound hp h
          exact ⟨_, .inr (.inl ⟨l, u, rfl, rfl, .inr hu⟩), by simp⟩
      · obtain ⟨t, ht, hb⟩ := scalar_sound h
        exact ⟨t, .inl ht, hb⟩

/-- An object needs nothing after it. -/
theorem object_ok {d : Nat} {l : List (Bytes × Json)} {t : Bytes} (h : Text d (.obj l) t) (r : Bytes) :
    value true d (t ++ r) = some (.obj l, r) := by
  cases d with
  | zero => cases h
  | succ d =>
    have hp := value_reads d
    rcases h with h | ⟨l', u, h, -⟩ | ⟨l', u, h, rfl, hm⟩
    · cases h
    · cases h
    · cases h
      rw [List.cons_append, List.append_assoc, List.singleton_append, value.eq_def]
      simp only
      rcases hm with ⟨rfl, hu⟩ | h
      · simp only [skip_ws hu (stops_lit (b := 125) rfl)]
      · obtain ⟨r', hs⟩ := members_first h (125 :: r)
        have := members_ok hp h r (u ++ 125 :: r).length (by simp; omega)
        rw [hs]
        split
        · rename_i heq; exact absurd (List.cons.inj heq).1 (by decide)
        · rw [this]; rfl

/-- A body is read as an object exactly if it is one. -/
theorem decode_iff {l : List (Bytes × Json)} {body : Bytes} :
    decode true body = some (.obj l) ↔ IsBody l body := by
  unfold decode
  rw [Option.map_eq_some_iff]
  constructor
  · rintro ⟨⟨v, r⟩, h, he⟩
    cases he
    obtain ⟨w, hw, hb, -⟩ := ws_split body
    obtain ⟨t, ht, hb'⟩ := (value_reads _).sound h
    exact ⟨w, t, r, by rw [hb, hb'], hw, ht⟩
  · rintro ⟨w, t, r, rfl, hw, ht⟩
    refine ⟨(.obj l, r), ?_, rfl⟩
    rw [skip_ws hw (text_stops ht)]
    exact object_ok ht r

end Comfo.Json
