import Verif.Lemmas.Json
/-!
# The texts that are written are JSON
-/
namespace Comfo.Props
open Spec Comfo.Pb Comfo.Twirp Comfo.Json

/-! ## Numbers -/

theorem decimal_snoc (ds : Bytes) (d : UInt8) :
    decimalValue (ds ++ [d]) = 10 * decimalValue ds + (d.toNat - 48) := by
  simp [decimalValue, List.foldl_append]

theorem intPart_snoc {ds : Bytes} {d : UInt8} (h : IntPart ds) (h0 : decimalValue ds ≠ 0)
    (hd : 48 ≤ d ∧ d ≤ 57) : IntPart (ds ++ [d]) := by
  cases h with
  | zero => exact absurd rfl h0
  | more h1 h2 h3 =>
    refine .more h1 h2 fun x hx => ?_
    rcases List.mem_append.1 hx with hx | hx
    · exact h3 x hx
    · cases List.mem_singleton.1 hx
      exact hd

theorem digit_byte {n : Nat} (h : n < 10) :
    48 ≤ UInt8.ofNat (48 + n) ∧ UInt8.ofNat (48 + n) ≤ 57 ∧ (UInt8.ofNat (48 + n)).toNat - 48 = n := by
  have : n = 0 ∨ n = 1 ∨ n = 2 ∨ n = 3 ∨ n = 4 ∨ n = 5 ∨ n = 6 ∨ n = 7 ∨ n = 8 ∨ n = 9 := by omega
  rcases this with rfl | rfl | rfl | rfl | rfl | rfl | rfl | rfl | rfl | rfl <;> decide

theorem digits_text : ∀ (k n : Nat), 0 < k → n < 10 ^ k →
    IntPart (digits k n) ∧ decimalValue (digits k n) = n
  | 0, _, h, _ => absurd h (by decide)
  | k + 1, n, _, hn => by
    unfold digits
    by_cases h : n < 10
    · rw [if_pos h]
      obtain ⟨h1, h2, h3⟩ := digit_byte h
      refine ⟨?_, by simpa [decimalValue] using h3⟩
      by_cases h0 : n = 0
      · subst h0
        exact .zero
      · refine .more ?_ h2 nofun
        have : n = 1 ∨ n = 2 ∨ n = 3 ∨ n = 4 ∨ n = 5 ∨ n = 6 ∨ n = 7 ∨ n = 8 ∨ n = 9 := by omega
        rcases this with rfl | rfl | rfl | rfl | rfl | rfl | rfl | rfl | rfl <;> decide
    · rw [if_neg h]
      have hk : 0 < k := by
        rcases Nat.eq_zero_or_pos k with rfl | hk
        · simp at hn
          omega
        · exact hk
      obtain ⟨h1, h2⟩ := digits_text k (n / 10) hk (by rw [Nat.pow_succ] at hn; omega)
      obtain ⟨h3, h4, h5⟩ := digit_byte (show n % 10 < 10 by omega)
      refine ⟨intPart_snoc h1 (by omega) ⟨h3, h4⟩, ?_⟩
      rw [decimal_snoc, h2, h5]
      omega

theorem int_text {v : Int} (h : v.natAbs < 10 ^ 20) : Scalar (Spec.int v) (intText v) := by
  obtain ⟨h1, h2⟩ := digits_text 20 v.natAbs (by decide) h
  have := NumText.mk (neg := decide (v < 0)) h1 .none .none
  rw [List.append_nil, h2] at this
  refine .num ?_
  simpa [intText] using this

theorem nat_text (v : UInt32) : Scalar (Spec.nat v) (digits 20 v.toNat) := by
  have hv := v.toNat_lt
  have := int_text (v := (v.toNat : Int)) (by simp; omega)
  have e : ¬ (v.toNat : Int) < 0 := by omega
  simpa [intText, e, Spec.nat] using this

theorem bool_text (b : Bool) : Scalar (.bool b) (if b then lit "true" else lit "false") := by
  cases b
  · exact .false
  · exact .true

/-! ## Strings -/

theorem hex_digit {n : Nat} (h : n < 16) : HexDigit n (hexDigit n) := by
  unfold HexDigit hexDigit
  by_cases h' : n < 10
  · refine .inl ⟨h', ?_⟩
    rw [if_pos h', UInt8.toNat_ofNat', Nat.mod_eq_of_lt (by omega)]
  · refine .inr ⟨by omega, h, .inl ?_⟩
    rw [if_neg h', UInt8.toNat_ofNat', Nat.mod_eq_of_lt (by omega)]

theorem uEscape_text (b : UInt8) : UEscape b.toNat (uEscape b) := by
  have hb := b.toNat_lt
  have := UEscape.mk (x := 0) (y := 0) (a := 48) (b := 48) (.inl ⟨by decide, rfl⟩) (.inl ⟨by decide, rfl⟩)
    (hex_digit (n := b.toNat / 16) (by omega)) (hex_digit (n := b.toNat % 16) (by omega))
  have e : 4096 * 0 + 256 * 0 + 16 * (b.toNat / 16) + b.toNat % 16 = b.toNat := by omega
  rw [e] at this
  exact this

theorem utf8_byte {b : UInt8} (h : b < 0x80) : utf8Full b.toNat = [b] := by
  have : b.toNat < 128 := h
  unfold utf8Full utf8
  rw [if_pos (by omega), if_pos (by omega), UInt8.ofNat_toNat]

theorem chars_u {b : UInt8} {s t : Bytes} (hb : b < 0x80) (h : Chars s t) :
    Chars (b :: s) (uEscape b ++ t) := by
  have h1 : b.toNat < 128 := hb
  have := Chars.unicode (uEscape_text b) (.inl (by omega)) h
  rwa [utf8_byte hb] at this

theorem chars_quoted {b : UInt8} {s t : Bytes} (h : Chars s t) : Chars (b :: s) (quoted b ++ t) := by
  unfold quoted
  split
  · rename_i hb
    rcases hb with rfl | rfl <;> exact .esc (by decide) h
  split
  · rename_i hb; subst hb; exact .esc (by decide) h
  split
  · rename_i hb; subst hb; exact .esc (by decide) h
  split
  · rename_i hb; subst hb; exact .esc (by decide) h
  split
  · rename_i hb; subst hb; exact .esc (by decide) h
  split
  · rename_i hb; subst hb; exact .esc (by decide) h
  split
  · rename_i hb
    exact chars_u (UInt8.lt_trans hb (by decide)) h
  · rename_i h1 _ _ _ _ _ h2
    exact .plain (UInt8.not_lt.1 h2) (fun e => h1 (.inl e)) (fun e => h1 (.inr e)) h

theorem quote_text {s : Bytes} (h : validUtf8 s = true) : StrText s (quote s) := by
  refine ⟨h, s.flatMap quoted, ?_, rfl⟩
  clear h
  induction s with
  | nil => exact .nil
  | cons b s ih => exact chars_quoted ih

theorem chars_html : ∀ (s : Bytes), Chars s (htmlQuoted s) := by
  intro s
  induction s using htmlQuoted.induct with
  | case1 r ih =>
    have h : UEscape (4096 * 2 + 256 * 0 + 16 * 2 + 8) [92, 117, 50, 48, 50, 56] :=
      .mk (.inl ⟨by decide, rfl⟩) (.inl ⟨by decide, rfl⟩) (.inl ⟨by decide, rfl⟩) (.inl ⟨by decide, rfl⟩)
    rw [htmlQuoted]
    exact Chars.unicode h (.inl (by decide)) ih
  | case2 r ih =>
    have h : UEscape (4096 * 2 + 256 * 0 + 16 * 2 + 9) [92, 117, 50, 48, 50, 57] :=
      .mk (.inl ⟨by decide, rfl⟩) (.inl ⟨by decide, rfl⟩) (.inl ⟨by decide, rfl⟩) (.inl ⟨by decide, rfl⟩)
    rw [htmlQuoted]
    exact Chars.unicode h (.inl (by decide)) ih
  | case3 b r h1 h2 ih =>
    rw [htmlQuoted.eq_3 b r h1 h2]
    split
    · rename_i hb
      rcases hb with rfl | rfl | rfl <;> exact chars_u (by decide) ih
    · exact chars_quoted ih
  | case4 => exact .nil

theorem utf8_split {s t : Bytes} (h : validUtf8 s = true) (ht : validUtf8 (s ++ t) = true) :
    validUtf8 t = true := by
  fun_induction validUtf8 s <;>
    first
    | exact ht
    | cases h; done
    | (rw [List.cons_append, validUtf8.eq_def] at ht; simp_all [List.cons_append]; done)
    | (rw [List.cons_append, validUtf8.eq_def] at ht; simp_all [List.cons_append]; grind)

theorem utf8_one {a : UInt8} (h : a < 0x80) : validUtf8 [a] = true := by
  rw [validUtf8.eq_def]; simp [h, validUtf8]

theorem utf8_first {a : UInt8} {bs : Bytes} (h : validUtf8 (a :: bs) = true) :
    ∃ k ∈ [1, 2, 3, 4], k ≤ (a :: bs).length ∧ validUtf8 ((a :: bs).take k) = true := by
  by_cases h1 : a < 0x80
  · exact ⟨1, by simp, by simp, utf8_one h1⟩
  rw [validUtf8.eq_def] at h
  simp only [h1, if_false] at h
  cases bs with
  | nil => cases h
  | cons b bs =>
    simp only at h
    by_cases h2 : 0xC2 ≤ a ∧ a ≤ 0xDF
    · refine ⟨2, by simp, by simp, ?_⟩
      rw [if_pos h2] at h
      rw [validUtf8.eq_def]
      simp_all [validUtf8]
    rw [if_neg h2] at h
    cases bs with
    | nil => cases h
    | cons c bs =>
      simp only at h
      by_cases h3 : 0xE0 ≤ a ∧ a ≤ 0xEF
      · refine ⟨3, by simp, by simp, ?_⟩
        rw [validUtf8.eq_def]
        simp only [h1, h2, if_false, List.take, validUtf8, Bool.and_true]
        split at h
        · simp_all
        · split at h
          · simp_all
          · split at h
            · simp_all
            · exfalso
              rename_i e1 e2 e3
              refine e3 ⟨?_, h3.2⟩
              have := h3.1
              simp only [UInt8.le_iff_toNat_le, UInt8.toNat_inj.symm] at *
              simp at *
              omega
      · have n1 : a ≠ 0xE0 := by rintro rfl; exact h3 (by decide)
        have n2 : a ≠ 0xED := by rintro rfl; exact h3 (by decide)
        have n3 : ¬ (0xE1 ≤ a ∧ a ≤ 0xEF) := fun h => h3 ⟨UInt8.le_trans (by decide) h.1, h.2⟩
        rw [if_neg n1, if_neg n2, if_neg n3] at h
        cases bs with
        | nil => cases h
        | cons d bs =>
          refine ⟨4, by simp, by simp, ?_⟩
          rw [validUtf8.eq_def]
          simp only [h1, h2, n1, n2, n3, if_false, List.take, validUtf8, Bool.and_true]
          simp only at h
          split at h
          · simp_all
          · split at h
            · simp_all
            · split at h
              · simp_all
              · cases h

theorem toValid_valid : ∀ (n : Nat) (s : Bytes), s.length ≤ n → validUtf8 s = true → toValid n s = s
  | 0, s, hl, _ => by
    cases s with
    | nil => rfl
    | cons _ _ => simp at hl
  | n + 1, [], _, _ => rfl
  | n + 1, b :: bs, hl, h => by
    unfold toValid
    obtain ⟨k, hk, hk1, hk2⟩ := utf8_first h
    cases hf : [1, 2, 3, 4].find? fun k => k ≤ (b :: bs).length && validUtf8 ((b :: bs).take k) with
    | none =>
      rw [List.find?_eq_none] at hf
      exact absurd (by simp only [hk1, hk2, decide_true, Bool.and_self]) (hf k hk)
    | some j =>
      simp only
      have h1 := List.find?_some hf
      have h2 := List.mem_of_find?_eq_some hf
      have hj : 0 < j := by revert h2; simp; omega
      simp only [Bool.and_eq_true, decide_eq_true_eq] at h1
      have h3 : validUtf8 ((b :: bs).drop j) = true :=
        utf8_split h1.2 (by rw [List.take_append_drop]; exact h)
      rw [toValid_valid n _ (by rw [List.length_drop]; omega) h3, List.take_append_drop]

theorem html_text {s : Bytes} (h : validUtf8 s = true) : StrText s (htmlQuote s) := by
  refine ⟨h, htmlQuoted s, chars_html s, ?_⟩
  rw [htmlQuote, toValid_valid _ _ (Nat.le_refl _) h]
  rfl

/-! ## Objects -/

/-- The text of a member. -/
def MemberText (T : Json → Bytes → Prop) (kv : Bytes × Json) (t : Bytes) : Prop :=
  ∃ n u, t = n ++ 58 :: u ∧ StrText kv.1 n ∧ T kv.2 u

theorem ws_nil : Ws [] := nofun

theorem join_members {T : Json → Bytes → Prop} {sp : Bool} {α : Type} {kv : α → Bytes × Json}
    {tx : α → Bytes} : ∀ {l : List α} {w : Bytes}, l ≠ [] → Ws w →
      (∀ a ∈ l, MemberText T (kv a) (tx a)) → Members T (l.map kv) (w ++ joinText sp (l.map tx))
  | [], _, h, _, _ => absurd rfl h
  | [a], w, _, hw, h => by
    obtain ⟨n, u, e, h1, h2⟩ := h a (by simp)
    have := Members.one hw h1 ws_nil ws_nil h2 ws_nil
    simpa [joinText, e] using this
  | a :: b :: l, w, _, hw, h => by
    have ih := join_members (sp := sp) (w := if sp then [32] else []) (List.cons_ne_nil b l)
      (by cases sp; exact ws_nil; intro b hb; simp at hb; exact .inl hb)
      (fun x hx => h x (List.mem_cons_of_mem _ hx))
    obtain ⟨n, u, e, h1, h2⟩ := h a (by simp)
    have := Members.more hw h1 ws_nil ws_nil h2 ws_nil ih
    simpa [joinText, e] using this

theorem object_text {d : Nat} {sp : Bool} {α : Type} {kv : α → Bytes × Json} {tx : α → Bytes}
    {l : List α} (h : ∀ a ∈ l, MemberText (Text d) (kv a) (tx a)) :
    Text (d + 1) (.obj (l.map kv)) (123 :: joinText sp (l.map tx) ++ [125]) := by
  refine .inr (.inr ⟨l.map kv, joinText sp (l.map tx), rfl, rfl, ?_⟩)
  by_cases hl : l = []
  · subst hl
    exact .inl ⟨rfl, ws_nil⟩
  · exact .inr (join_members (w := []) hl ws_nil h)

theorem scalar_is_text {d : Nat} {v : Json} {t : Bytes} (h : Scalar v t) : Text d v t := by
  cases d
  · exact h
  · exact .inl h

/-! ## `encoding/json` reads what `protojson` reads -/

theorem chars_lenient : ∀ {n : Nat} {bs : Bytes} {x : Bytes × Bytes}, chars true n bs = some x →
    chars false n bs = some x
  | 0, _, _, h => by cases h
  | n + 1, [], _, h => by cases h
  | n + 1, b :: r, x, h => by
    rw [chars.eq_def] at h ⊢
    simp only at h ⊢
    have ih : ∀ {r : Bytes} {f : Bytes × Bytes → Bytes × Bytes}, (chars true n r).map f = some x →
        (chars false n r).map f = some x := by
      intro r f h
      rw [Option.map_eq_some_iff] at h ⊢
      obtain ⟨y, h1, h2⟩ := h
      exact ⟨y, chars_lenient h1, h2⟩
    split
    · rename_i hb
      rwa [if_pos hb] at h
    rename_i hb
    rw [if_neg hb] at h
    split
    · rename_i hb
      rwa [if_pos hb] at h
    rename_i hb
    rw [if_neg hb] at h
    split
    · rename_i hb
      rw [if_pos hb] at h
      exact ih h
    rename_i hb
    rw [if_neg hb] at h
    split at h
    · split at h
      · cases h
      · rename_i hx
        split at h
        · rename_i hc
          rw [if_pos hc]
          exact ih h
        · rename_i c _ hc
          rw [if_neg hc]
          split at h
          · exact ih h
          · cases h
    · split at h
      · cases h
      · exact ih h
    · cases h

theorem string_lenient {bs : Bytes} {x : Bytes × Bytes} (h : string true bs = some x) :
    string false bs = some x := by
  unfold string at h ⊢
  split at h
  · cases h
  · rename_i hc
    rw [chars_lenient hc]
    simp only
    split at h
    · rename_i hv
      rw [if_pos hv]
      exact h
    · cases h

theorem scalar_lenient {bs : Bytes} {x : Json × Bytes} (h : scalar true bs = some x) :
    scalar false bs = some x := by
  unfold scalar at h ⊢
  split at h
  · exact h
  · exact h
  · exact h
  · rw [Option.map_eq_some_iff] at h
    obtain ⟨y, h1, h2⟩ := h
    simp only [string_lenient h1, Option.map_some, h2]
  · exact h

theorem elems_lenient {p q : Bytes → Option (Json × Bytes)}
    (hp : ∀ {bs x}, p bs = some x → q bs = some x) : ∀ {n : Nat} {bs : Bytes} {x : List Json × Bytes},
    elems p n bs = some x → elems q n bs = some x
  | 0, _, _, h => by cases h
  | n + 1, bs, x, h => by
    rw [elems] at h ⊢
    split at h
    · cases h
    · rename_i hv
      rw [hp hv]
      simp only
      split at h
      · rw [Option.map_eq_some_iff] at h ⊢
        obtain ⟨y, h1, h2⟩ := h
        exact ⟨y, elems_lenient hp h1, h2⟩
      · exact h
      · cases h

theorem members_lenient {p q : Bytes → Option (Json × Bytes)}
    (hp : ∀ {bs x}, p bs = some x → q bs = some x) :
    ∀ {n : Nat} {bs : Bytes} {x : List (Bytes × Json) × Bytes},
    members true p n bs = some x → members false q n bs = some x
  | 0, _, _, h => by cases h
  | n + 1, bs, x, h => by
    rw [members] at h ⊢
    split at h
    · split at h
      · cases h
      · rename_i hk
        rw [string_lenient hk]
        simp only
        split at h
        · split at h
          · cases h
          · rename_i hv
            rw [hp hv]
            simp only
            split at h
            · rw [Option.map_eq_some_iff] at h ⊢
              obtain ⟨y, h1, h2⟩ := h
              exact ⟨y, members_lenient hp h1, h2⟩
            · exact h
            · cases h
        · cases h
    · cases h

theorem value_lenient : ∀ {d : Nat} {bs : Bytes} {x : Json × Bytes}, value true d bs = some x →
    value false d bs = some x
  | 0, _, _, h => scalar_lenient h
  | d + 1, bs, x, h => by
    rw [value.eq_def] at h ⊢
    simp only at h ⊢
    split at h
    · split at h
      · exact h
      · rw [Option.map_eq_some_iff] at h ⊢
        obtain ⟨y, h1, h2⟩ := h
        exact ⟨y, members_lenient value_lenient h1, h2⟩
    · split at h
      · exact h
      · rw [Option.map_eq_some_iff] at h ⊢
        obtain ⟨y, h1, h2⟩ := h
        exact ⟨y, elems_lenient value_lenient h1, h2⟩
    · exact scalar_lenient h

theorem decode_lenient {bs : Bytes} {v : Json} (h : decode true bs = some v) :
    decode false bs = some v := by
  unfold decode at h ⊢
  rw [Option.map_eq_some_iff] at h ⊢
  obtain ⟨y, h1, h2⟩ := h
  exact ⟨y, value_lenient h1, h2⟩

theorem text_body {l : List (Bytes × Json)} {t : Bytes} (h : Text 10000 (.obj l) t) : IsBody l t :=
  ⟨[], t, [], by simp, ws_nil, h⟩

end Comfo.Props
