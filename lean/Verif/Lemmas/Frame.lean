import Verif.Lemmas.RefRead
/-! Helper lemmas: how the reader sees the frame of a packet. -/
namespace Comfo
open Spec

theorem noDelim_single (a : UInt8) : NoDelim [a] := by
  rw [noDelim_cons]; exact ⟨fun _ d y h => by simp at h, noDelim_nil⟩

theorem noDelim_append_seven {w : List UInt8} (h : NoDelim w) : NoDelim (w ++ [7]) := by
  induction w with
  | nil => exact noDelim_single 7
  | cons a w ih =>
    rw [noDelim_cons] at h
    rw [List.cons_append, noDelim_cons]
    refine ⟨fun ha d y hw => ?_, ih h.2⟩
    cases w with
    | nil => simp at hw; rw [← hw.1]; decide
    | cons c w =>
      simp at hw
      rw [← hw.1]; exact h.1 ha c w rfl

theorem noDelim_of_prefix {a b : List UInt8} (h : a <+: b) (hb : NoDelim b) : NoDelim a := by
  obtain ⟨t, rfl⟩ := h; exact noDelim_left hb

theorem refStep_prefix {tok R A : List UInt8} {d : UInt8} {b : Bool} (l : Bool)
    (hn : NoDelim tok) (hd : IsDelim d) (hl : tok.length + 2 ≤ 65536)
    (hpre : A <+: tok ++ 7 :: d :: R) (hfull : b = true → tok.length + 2 ≤ A.length) :
    refStep A b l = none ∨
      ∃ A', A = tok ++ 7 :: d :: A' ∧ A' <+: R ∧ refStep A b l = some (tok, A', b) := by
  by_cases h : tok.length + 2 ≤ A.length
  · have e : tok ++ 7 :: d :: R = (tok ++ [7, d]) ++ R := by simp
    rw [e] at hpre
    have h1 : tok ++ [7, d] <+: A :=
      List.prefix_of_prefix_length_le (List.prefix_append _ _) hpre (by simp; omega)
    obtain ⟨A', rfl⟩ := h1
    have h2 : A' <+: R := (List.prefix_append_right_inj _).1 hpre
    cases l with
    | true => left; simp
    | false =>
      right
      refine ⟨A', by simp, h2, ?_⟩
      exact refStep_tok b ⟨by simp, hd, hn⟩ hl
  · left
    have hb : b = false := by
      cases b with
      | false => rfl
      | true => exact absurd (hfull rfl) h
    subst hb
    have e : tok ++ 7 :: d :: R = (tok ++ [7]) ++ d :: R := by simp
    rw [e] at hpre
    have h1 : A <+: tok ++ [7] :=
      List.prefix_of_prefix_length_le hpre (List.prefix_append _ _) (by simp; omega)
    exact refStep_silent (noDelim_of_prefix h1 (noDelim_append_seven hn)) (by omega) l

/-- Cutting two or more bytes off escaped data loses at least one payload byte. -/
theorem unescape_cut (data x z : List UInt8) (h : doubled data = x ++ z) (hz : 2 ≤ z.length) :
    (unescapeData x).length < data.length := by
  induction data generalizing x with
  | nil =>
    have := congrArg List.length h
    simp [doubled] at this; omega
  | cons v r ih =>
    by_cases hv : v = 7
    · subst hv
      have h : 7 :: 7 :: doubled r = x ++ z := by rw [← h]; simp [doubled]
      match x, h with
      | [], _ => simp
      | [a], h => simp at h; rw [← h.1]; simp [unescapeData]
      | a :: b :: x, h =>
        simp at h
        obtain ⟨rfl, rfl, h⟩ := h
        rw [unescape_pair]; simp [ih x h]
    · have h : v :: doubled r = x ++ z := by rw [← h]; simp [doubled, hv]
      match x, h with
      | [], _ => simp
      | a :: x, h =>
        simp at h
        obtain ⟨rfl, h⟩ := h
        rw [unescape_plain hv]; simp [ih x h]

theorem unmarshal_body (cmd : UInt8) (data : List UInt8) (h : data.length ≤ 255) :
    unmarshalPacket (body cmd data) = .ret { command := cmd, data := data } none := by
  unfold Spec.body
  rw [unmarshal_parts, ← escapeData_eq_doubled, unescape_escape, toNat_ofNat_of_le h,
    calculateChecksum_eq_spec]
  simp

/-- The token the reader cuts out of a frame is the body, or something that is rejected. -/
theorem frame_token {cmd : UInt8} {data trailing tok rest : List UInt8} {d : UInt8}
    (h : data.length ≤ 255)
    (ht : Token (body cmd data ++ 7 :: 0x0F :: trailing) tok d rest) :
    tok ≠ [] ∧ tok.length ≤ (body cmd data).length ∧ (NoDelim (body cmd data) → tok = body cmd data) ∧
    (¬ NoDelim (body cmd data) →
      tok.length < 4 ∨ unmarshalPacket tok = .ret {} (some .payloadSize)) := by
  have hne : tok ≠ [] := by
    rintro rfl
    have := ht.1
    simp [body] at this
  rcases noDelim_or_token (body cmd data) with hn | ⟨t, d', r, ht'⟩
  · have : Token (body cmd data ++ 7 :: 0x0F :: trailing) (body cmd data) 0x0F trailing :=
      ⟨rfl, by decide, hn⟩
    obtain ⟨rfl, -, -⟩ := token_unique ht this
    exact ⟨hne, Nat.le_refl _, fun _ => rfl, fun hx => absurd hn hx⟩
  · obtain ⟨rfl, rfl, -⟩ := token_unique ht (token_append ht' (7 :: 0x0F :: trailing))
    have hlen : tok.length ≤ (body cmd data).length := by rw [ht'.1]; simp
    refine ⟨hne, hlen, fun hx => absurd hx (token_not_noDelim ht'), fun _ => ?_⟩
    by_cases h4 : tok.length < 4
    · exact .inl h4
    · right
      obtain ⟨z, c, len, raw, ck, rfl⟩ := parts_of_length (w := tok) (by omega)
      have e := ht'.1
      simp [body] at e
      obtain ⟨rfl, rfl, rfl, e⟩ := e
      rw [unmarshal_parts, toNat_ofNat_of_le h]
      -- the last byte of the right-hand side is the checksum
      have hy : ∃ y y', (d :: r : List UInt8) = y ++ [y'] :=
        ⟨_, _, (List.dropLast_concat_getLast (by simp)).symm⟩
      obtain ⟨y, y', hy⟩ := hy
      rw [hy] at e
      have e' : doubled data ++ [checksum cmd data] = (raw ++ ck :: 7 :: y) ++ [y'] := by
        rw [e]; simp
      have e'' := (List.append_inj' e' rfl).1
      have := unescape_cut data raw (ck :: 7 :: y) e'' (by simp)
      have : ¬ data.length = (unescapeData raw).length := by omega
      simp [this]

theorem noDelim_doubled (w post : List UInt8) :
    NoDelim (doubled w ++ post) ↔ NoDelim (w ++ post) := by
  induction w with
  | nil => simp [doubled]
  | cons v r ih =>
    by_cases hv : v = 7
    · subst hv
      have e : doubled (7 :: r) ++ post = 7 :: 7 :: (doubled r ++ post) := by simp [doubled]
      rw [e, List.cons_append, noDelim_cons, noDelim_cons, noDelim_cons, ih]
      have hh : (doubled r ++ post).head? = (r ++ post).head? := by
        cases r with
        | nil => simp [doubled]
        | cons a r => by_cases ha : a = 7 <;> simp [doubled, ha]
      have hiff : ((7 : UInt8) = 7 → ∀ d y, doubled r ++ post = d :: y → ¬ IsDelim d) ↔
          ((7 : UInt8) = 7 → ∀ d y, r ++ post = d :: y → ¬ IsDelim d) := by
        constructor
        · intro h _ d y he
          rw [he] at hh
          match hx : doubled r ++ post, hh with
          | a :: t, hh => simp at hh; subst hh; exact h rfl a t hx
        · intro h _ d y he
          rw [he] at hh
          match hx : r ++ post, hh with
          | a :: t, hh => simp at hh; subst hh; exact h rfl _ t hx
      rw [hiff]
      constructor
      · intro h; exact h.2
      · intro h
        refine ⟨?_, h⟩
        intro _ d y he
        simp at he; rw [← he.1]; decide
    · have e : doubled (v :: r) ++ post = v :: (doubled r ++ post) := by simp [doubled, hv]
      rw [e, List.cons_append, noDelim_cons, noDelim_cons, ih]
      simp [hv]

/-- No delimiter inside the frame body, in terms of the unescaped packet. -/
theorem noDelim_body (cmd : UInt8) (data : List UInt8) :
    NoDelim (body cmd data) ↔
      NoDelim (cmd :: UInt8.ofNat data.length :: (data ++ [checksum cmd data])) := by
  unfold body
  have h0 : ∀ w, NoDelim ((0 : UInt8) :: w) ↔ NoDelim w := by
    intro w; rw [noDelim_cons]; simp
  rw [h0]
  have hx := noDelim_doubled data [checksum cmd data]
  have hh : (doubled data ++ [checksum cmd data]).head? = (data ++ [checksum cmd data]).head? := by
    cases data with
    | nil => simp [doubled]
    | cons a r => by_cases ha : a = 7 <;> simp [doubled, ha]
  have key : ∀ (a : UInt8) (u v : List UInt8), (NoDelim u ↔ NoDelim v) → u.head? = v.head? →
      (NoDelim (a :: u) ↔ NoDelim (a :: v)) := by
    intro a u v h1 h2
    rw [noDelim_cons, noDelim_cons, h1]
    cases u with
    | nil => cases v with
      | nil => simp
      | cons b v => simp at h2
    | cons b u => cases v with
      | nil => simp at h2
      | cons c v => simp at h2; subst h2; simp
  exact key _ _ _ (key _ _ _ hx hh) rfl

theorem length_body (cmd : UInt8) (data : List UInt8) :
    (body cmd data).length = 4 + data.length + data.count 7 := by
  simp [body, length_doubled]; omega

theorem length_body_le {cmd : UInt8} {data : List UInt8} (h : data.length ≤ 255) :
    (body cmd data).length ≤ 514 := by
  have : data.count 7 ≤ data.length := List.count_le_length
  rw [length_body]; omega

/-- What a successful read of a reply says, for every script. -/
theorem readPacket_sound {c c' : Conn} {q : Packet}
    (h : readPacket c true = (.ret q none, c')) :
    q = {} ∨ ∃ d1 d2 d3 tok rest, IsDelim d1 ∧ IsDelim d2 ∧ IsDelim d3 ∧ NoDelim tok ∧
      delivered c.rd = [7, d1, 7, d2] ++ tok ++ 7 :: d3 :: rest ∧
      unmarshalPacket tok = .ret q none := by
  unfold readPacket at h
  obtain ⟨p1, e1, s1, c1, h1, i1, -, -, -, -, a1, b1⟩ := scanTimeout_sound (c := c) scanInv_init
  rw [h1] at h
  cases e1 with
  | some e => simp at h
  | none =>
    simp only at h
    by_cases hp1 : p1 = []
    · subst hp1
      simp only [List.length_nil, ne_eq, not_true_eq_false, if_false, Bool.not_true,
        Bool.false_eq_true] at h
      obtain ⟨p2, e2, s2, c2, h2, i2, -, -, -, -, a2, b2⟩ := scanTimeout_sound (c := c1) i1
      rw [h2] at h
      cases e2 with
      | some e => simp at h
      | none =>
        simp only at h
        by_cases hp2 : p2 = []
        · subst hp2
          simp only [List.length_nil, ne_eq, not_true_eq_false, if_false] at h
          obtain ⟨p3, e3, s3, c3, h3, i3, -, -, -, -, a3, b3⟩ := scanTimeout_sound (c := c2) i2
          rw [h3] at h
          cases e3 with
          | some e => simp at h
          | none =>
            simp only at h
            by_cases hp3 : p3 = []
            · subst hp3; simp at h; exact .inl h.1.symm
            · right
              have hpos : 0 < p3.length := List.length_pos_iff.2 hp3
              by_cases h4 : p3.length < 4
              · simp [hpos, h4] at h
              · have h5 : p3.length ≥ 4 := by omega
                simp [h4, h5] at h
                obtain ⟨-, d3, l3, t3⟩ := a3 hp3
                -- the scanner was alive before
                have alive2 : ¬ (s2.err = true ∧ NoDelim s2.win) := by
                  rintro ⟨x, y⟩
                  have : avail s2 c2.rd = s2.win := by simp [avail, x]
                  rw [this] at t3; exact token_not_noDelim t3 y
                rcases b2 rfl rfl with hx | ⟨d2, l2, t2⟩
                · exact absurd hx alive2
                have alive1 : ¬ (s1.err = true ∧ NoDelim s1.win) := by
                  rintro ⟨x, y⟩
                  have : avail s1 c1.rd = s1.win := by simp [avail, x]
                  rw [this] at t2; exact token_not_noDelim t2 y
                rcases b1 rfl rfl with hx | ⟨d1, l1, t1⟩
                · exact absurd hx alive1
                have e0 : avail ({} : Scanner) c.rd = delivered c.rd := by simp [avail]
                rw [e0] at t1
                refine ⟨d1, d2, d3, p3, avail s3 c3.rd ++ l3 ++ l2 ++ l1, t1.2.1, t2.2.1,
                  t3.2.1, t3.2.2, ?_, h.1⟩
                rw [t1.1, t2.1, t3.1]; simp
        · simp [hp2] at h
    · simp [hp1] at h

theorem readPacket_ne_panic (c : Conn) (e : Bool) : (readPacket c e).1 ≠ .panic := by
  unfold readPacket
  obtain ⟨p1, e1, s1, c1, h1, i1, -⟩ := scanTimeout_sound (c := c) scanInv_init
  rw [h1]
  cases e1 with
  | some e => simp
  | none =>
    simp only
    split
    · simp
    · split
      · simp
      · obtain ⟨p2, e2, s2, c2, h2, i2, -⟩ := scanTimeout_sound (c := c1) i1
        rw [h2]
        cases e2 with
        | some e => simp
        | none =>
          simp only
          split
          · simp
          · obtain ⟨p3, e3, s3, c3, h3, i3, -⟩ := scanTimeout_sound (c := c2) i2
            rw [h3]
            cases e3 with
            | some e => simp
            | none =>
              simp only
              split
              · simp
              · split
                · exact unmarshal_ne_panic _
                · simp

/-- Reading never writes. -/
theorem readPacket_sent (c : Conn) (e : Bool) :
    (readPacket c e).2.sent = c.sent ∧ (readPacket c e).2.wr = c.wr := by
  unfold readPacket
  obtain ⟨p1, e1, s1, c1, h1, i1, w1, t1, -⟩ := scanTimeout_sound (c := c) scanInv_init
  rw [h1]
  cases e1 with
  | some e => simp [w1, t1]
  | none =>
    simp only
    split
    · simp [w1, t1]
    · split
      · simp [w1, t1]
      · obtain ⟨p2, e2, s2, c2, h2, i2, w2, t2, -⟩ := scanTimeout_sound (c := c1) i1
        rw [h2]
        cases e2 with
        | some e => simp [w1, t1, w2, t2]
        | none =>
          simp only
          split
          · simp [w1, t1, w2, t2]
          · obtain ⟨p3, e3, s3, c3, h3, i3, w3, t3, -⟩ := scanTimeout_sound (c := c2) i2
            rw [h3]
            cases e3 with
            | some e => simp [w1, t1, w2, t2, w3, t3]
            | none =>
              simp only
              split
              · simp [w1, t1, w2, t2, w3, t3]
              · split <;> simp [w1, t1, w2, t2, w3, t3]

end Comfo
