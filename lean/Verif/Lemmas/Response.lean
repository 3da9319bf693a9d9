import Verif.Model.Response
import Verif.Spec.Device
/-! Helper lemmas about decoding payloads. -/
namespace Comfo
open Spec

theorem or_shift8 (a b : Nat) (hb : b < 256) : b ||| a <<< 8 = a * 256 + b := by
  rw [Nat.or_comm, ← Nat.shiftLeft_add_eq_or_of_lt (by simpa using hb)]
  simp [Nat.shiftLeft_eq]

theorem beUint16_pair (a b : UInt8) :
    ∃ w, beUint16 [a, b] = some w ∧ w.toNat = a.toNat * 256 + b.toNat := by
  refine ⟨b.toUInt16 ||| (a.toUInt16 <<< 8), rfl, ?_⟩
  have ha := a.toNat_lt
  have hb := b.toNat_lt
  simp only [UInt16.toNat_or, UInt16.toNat_shiftLeft, UInt8.toNat_toUInt16]
  have : a.toNat <<< ((8 : UInt16).toNat % 16) % 2 ^ 16 = a.toNat <<< 8 := by
    have e : (8 : UInt16).toNat % 16 = 8 := by decide
    rw [e, Nat.shiftLeft_eq]; omega
  rw [this, or_shift8 _ _ hb]

theorem beUint32_triple (a b c : UInt8) :
    ∃ w, beUint32 [0, a, b, c] = some w ∧
      w.toNat = (a.toNat * 256 + b.toNat) * 256 + c.toNat := by
  refine ⟨c.toUInt32 ||| (b.toUInt32 <<< 8) ||| (a.toUInt32 <<< 16) ||| ((0 : UInt8).toUInt32 <<< 24),
    rfl, ?_⟩
  have ha := a.toNat_lt
  have hb := b.toNat_lt
  have hc := c.toNat_lt
  simp only [UInt32.toNat_or, UInt32.toNat_shiftLeft, UInt8.toNat_toUInt32]
  have e1 : b.toNat <<< ((8 : UInt32).toNat % 32) % 2 ^ 32 = b.toNat <<< 8 := by
    have e : (8 : UInt32).toNat % 32 = 8 := by decide
    rw [e, Nat.shiftLeft_eq]; omega
  have e2 : a.toNat <<< ((16 : UInt32).toNat % 32) % 2 ^ 32 = a.toNat <<< 16 := by
    have e : (16 : UInt32).toNat % 32 = 16 := by decide
    rw [e, Nat.shiftLeft_eq]; omega
  have e3 : (0 : UInt8).toNat <<< ((24 : UInt32).toNat % 32) % 2 ^ 32 = 0 := by decide
  rw [e1, e2, e3, or_shift8 _ _ hc, Nat.or_zero, Nat.or_comm,
    ← Nat.shiftLeft_add_eq_or_of_lt (by omega)]
  simp [Nat.shiftLeft_eq]; omega

/-! ## TrimSpace -/

theorem space1_iff (a : UInt8) : space1 a = true → [a] ∈ spaceEncodings := by
  simp only [space1, List.contains_iff_mem, List.mem_cons, List.not_mem_nil, or_false]
  rintro (rfl | rfl | rfl | rfl | rfl | rfl) <;> decide

theorem space2_iff (a b : UInt8) : space2 a b = true → [a, b] ∈ spaceEncodings := by
  simp only [space2, List.contains_iff_mem, List.mem_cons, List.not_mem_nil, or_false,
    Bool.and_eq_true, beq_iff_eq]
  rintro ⟨rfl, rfl | rfl⟩ <;> decide

theorem space3_iff (a b c : UInt8) : space3 a b c = true → [a, b, c] ∈ spaceEncodings := by
  simp only [space3, List.contains_iff_mem, List.mem_cons, List.not_mem_nil, or_false,
    Bool.and_eq_true, Bool.or_eq_true, beq_iff_eq]
  rintro (((⟨⟨rfl, rfl⟩, rfl⟩ | ⟨⟨rfl, rfl⟩, h⟩) | ⟨⟨rfl, rfl⟩, rfl⟩) | ⟨⟨rfl, rfl⟩, rfl⟩)
  · decide
  · rcases h with rfl | rfl | rfl | rfl | rfl | rfl | rfl | rfl | rfl | rfl | rfl | rfl | rfl | rfl <;>
      decide
  · decide
  · decide

theorem spaceEncodings_cases {e : List UInt8} (h : e ∈ spaceEncodings) :
    (∃ a, e = [a] ∧ space1 a = true) ∨
    (∃ a b, e = [a, b] ∧ space1 a = false ∧ space1 b = false ∧ space2 a b = true) ∨
    (∃ a b c, e = [a, b, c] ∧ space1 a = false ∧ space2 a b = false ∧ space1 c = false ∧
      space2 b c = false ∧ space3 a b c = true) := by
  have : ∀ e ∈ spaceEncodings, (match e with
      | [a] => space1 a
      | [a, b] => !space1 a && !space1 b && space2 a b
      | [a, b, c] => !space1 a && !space2 a b && !space1 c && !space2 b c && space3 a b c
      | _ => false) = true := by decide
  have := this e h
  match e, this with
  | [a], h => exact .inl ⟨a, rfl, h⟩
  | [a, b], h =>
    simp only [Bool.and_eq_true, Bool.not_eq_true'] at h
    exact .inr (.inl ⟨a, b, rfl, h.1.1, h.1.2, h.2⟩)
  | [a, b, c], h =>
    simp only [Bool.and_eq_true, Bool.not_eq_true'] at h
    exact .inr (.inr ⟨a, b, c, rfl, h.1.1.1.1, h.1.1.1.2, h.1.1.2, h.1.2, h.2⟩)

theorem allSpace_append {a b : List UInt8} (ha : AllSpace a) (hb : AllSpace b) :
    AllSpace (a ++ b) := by
  induction ha with
  | nil => simpa
  | cons he _ ih => rw [List.append_assoc]; exact .cons he ih

theorem allSpace_single {e : List UInt8} (h : e ∈ spaceEncodings) : AllSpace e := by
  have := AllSpace.cons h .nil; simpa using this

theorem trimLeft_spec (s : List UInt8) :
    ∃ pre, s = pre ++ trimLeft s ∧ AllSpace pre ∧
      ∀ e ∈ spaceEncodings, ¬ e <+: trimLeft s := by
  have final : ∀ t : List UInt8, (∀ a r, t = a :: r → space1 a = false ∧
      (∀ b r', r = b :: r' → space2 a b = false ∧ ∀ c r'', r' = c :: r'' → space3 a b c = false)) →
      ∀ e ∈ spaceEncodings, ¬ e <+: t := by
    intro t h e he hp
    obtain ⟨u, rfl⟩ := hp
    rcases spaceEncodings_cases he with ⟨a, rfl, h1⟩ | ⟨a, b, rfl, h1, -, h2⟩ |
      ⟨a, b, c, rfl, h1, h2, -, -, h3⟩
    · have := (h a u rfl).1; rw [h1] at this; simp at this
    · have := ((h a (b :: u) rfl).2 b u rfl).1; rw [h2] at this; simp at this
    · have := ((h a (b :: c :: u) rfl).2 b (c :: u) rfl).2 c u rfl; rw [h3] at this; simp at this
  fun_induction trimLeft s with
  | case1 => exact ⟨[], rfl, .nil, final [] (by simp)⟩
  | case2 a r h ih =>
    obtain ⟨pre, h1, h2, h3⟩ := ih
    exact ⟨a :: pre, by rw [List.cons_append, ← h1], .cons (space1_iff a h) h2, h3⟩
  | case3 a h =>
    exact ⟨[], rfl, .nil, final [a] (by
      intro x r hx; simp at hx; obtain ⟨rfl, rfl⟩ := hx
      exact ⟨by simpa using h, by simp⟩)⟩
  | case4 a h b r' h2 ih =>
    obtain ⟨pre, h1, hs, h3⟩ := ih
    exact ⟨a :: b :: pre, by rw [List.cons_append, List.cons_append, ← h1],
      .cons (space2_iff a b h2) hs, h3⟩
  | case5 a h b h2 =>
    exact ⟨[], rfl, .nil, final [a, b] (by
      intro x r hx; simp at hx; obtain ⟨rfl, rfl⟩ := hx
      refine ⟨by simpa using h, ?_⟩
      intro y r' hy; simp at hy; obtain ⟨rfl, rfl⟩ := hy
      exact ⟨by simpa using h2, by simp⟩)⟩
  | case6 a h b h2 c r'' h3 ih =>
    obtain ⟨pre, h1, hs, h4⟩ := ih
    exact ⟨a :: b :: c :: pre, by
      rw [List.cons_append, List.cons_append, List.cons_append, ← h1],
      .cons (space3_iff a b c h3) hs, h4⟩
  | case7 a h b h2 c r'' h3 =>
    exact ⟨[], rfl, .nil, final (a :: b :: c :: r'') (by
      intro x r hx; simp at hx; obtain ⟨rfl, rfl⟩ := hx
      refine ⟨by simpa using h, ?_⟩
      intro y r' hy; simp at hy; obtain ⟨rfl, rfl⟩ := hy
      refine ⟨by simpa using h2, ?_⟩
      intro z r'' hz; simp at hz; obtain ⟨rfl, rfl⟩ := hz
      simpa using h3)⟩

theorem trimRightRev_spec (s : List UInt8) :
    ∃ post, s.reverse = (trimRightRev s).reverse ++ post ∧ AllSpace post ∧
      ∀ e ∈ spaceEncodings, ¬ e <:+ (trimRightRev s).reverse := by
  have final : ∀ t : List UInt8, (∀ c r, t = c :: r → space1 c = false ∧
      (∀ b r', r = b :: r' → space2 b c = false ∧ ∀ a r'', r' = a :: r'' → space3 a b c = false)) →
      ∀ e ∈ spaceEncodings, ¬ e <:+ t.reverse := by
    intro t h e he hp
    rw [← List.reverse_prefix, List.reverse_reverse] at hp
    obtain ⟨u, hu⟩ := hp
    rcases spaceEncodings_cases he with ⟨a, rfl, h1⟩ | ⟨a, b, rfl, h1, h1', h2⟩ |
      ⟨a, b, c, rfl, h1, h2, -, -, h3⟩
    · have := (h a u (by rw [← hu]; rfl)).1; rw [h1] at this; simp at this
    · have := ((h b (a :: u) (by rw [← hu]; rfl)).2 a u rfl).1; rw [h2] at this; simp at this
    · have := ((h c (b :: a :: u) (by rw [← hu]; rfl)).2 b (a :: u) rfl).2 a u rfl
      rw [h3] at this; simp at this
  fun_induction trimRightRev s with
  | case1 => exact ⟨[], rfl, .nil, final [] (by simp)⟩
  | case2 c r h ih =>
    obtain ⟨post, h1, h2, h3⟩ := ih
    exact ⟨post ++ [c], by rw [List.reverse_cons, h1, List.append_assoc],
      allSpace_append h2 (allSpace_single (space1_iff c h)), h3⟩
  | case3 c h =>
    exact ⟨[], by simp, .nil, final [c] (by
      intro x r hx; simp at hx; obtain ⟨rfl, rfl⟩ := hx
      exact ⟨by simpa using h, by simp⟩)⟩
  | case4 c h b r' h2 ih =>
    obtain ⟨post, h1, hs, h3⟩ := ih
    exact ⟨post ++ [b, c], by simp [h1], allSpace_append hs (allSpace_single (space2_iff b c h2)), h3⟩
  | case5 c h b h2 =>
    exact ⟨[], by simp, .nil, final [c, b] (by
      intro x r hx; simp at hx; obtain ⟨rfl, rfl⟩ := hx
      refine ⟨by simpa using h, ?_⟩
      intro y r' hy; simp at hy; obtain ⟨rfl, rfl⟩ := hy
      exact ⟨by simpa using h2, by simp⟩)⟩
  | case6 c h b h2 a r'' h3 ih =>
    obtain ⟨post, h1, hs, h4⟩ := ih
    exact ⟨post ++ [a, b, c], by simp [h1], allSpace_append hs (allSpace_single (space3_iff a b c h3)), h4⟩
  | case7 c h b h2 a r'' h3 =>
    exact ⟨[], by simp, .nil, final (c :: b :: a :: r'') (by
      intro x r hx; simp at hx; obtain ⟨rfl, rfl⟩ := hx
      refine ⟨by simpa using h, ?_⟩
      intro y r' hy; simp at hy; obtain ⟨rfl, rfl⟩ := hy
      refine ⟨by simpa using h2, ?_⟩
      intro z r'' hz; simp at hz; obtain ⟨rfl, rfl⟩ := hz
      simpa using h3)⟩

theorem trimSpace_spec (s : List UInt8) :
    ∃ pre post, s = pre ++ trimSpace s ++ post ∧ AllSpace pre ∧ AllSpace post ∧
      ∀ e ∈ spaceEncodings, ¬ e <+: trimSpace s ∧ ¬ e <:+ trimSpace s := by
  obtain ⟨pre, h1, h2, h3⟩ := trimLeft_spec s
  obtain ⟨post, h4, h5, h6⟩ := trimRightRev_spec (trimLeft s).reverse
  rw [List.reverse_reverse] at h4
  refine ⟨pre, post, ?_, h2, h5, fun e he => ⟨fun hp => ?_, h6 e he⟩⟩
  · unfold trimSpace; rw [List.append_assoc, ← h4, ← h1]
  · apply h3 e he
    rw [h4]
    exact hp.trans (List.prefix_append _ _)

end Comfo
