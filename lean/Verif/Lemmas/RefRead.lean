import Verif.Lemmas.Reading
/-! Reference reader on whole byte strings: with no empty reads, `readPacket` computes it. -/
namespace Comfo
open Spec

/-- One wait: `none` is a timeout; otherwise token, remaining bytes, and whether the input has
ended. -/
def refStep (w : List UInt8) (b l : Bool) : Option (List UInt8 × List UInt8 × Bool) :=
  if l then none
  else match splitFunc w with
  | some (adv, tok) => if adv ≤ 65536 then some (tok, w.drop adv, b) else some ([], [], true)
  | none => if b ∨ 65536 ≤ w.length then some ([], [], true) else none

/-- The state of scanner and script is represented by the bytes to come and the end flag. -/
def Repr' (s : Scanner) (rd : List RdEv) (w : List UInt8) (b : Bool) : Prop :=
  (ScanInv s ∧ NoEmptyReads rd ∧ avail s rd = w ∧ ends s rd = b) ∨
  (s.err = true ∧ NoDelim s.win ∧ w = [] ∧ b = true)

theorem refStep_tok {w t r : List UInt8} {d : UInt8} (b : Bool) (h : Token w t d r)
    (hl : t.length + 2 ≤ 65536) : refStep w b false = some (t, r, b) := by
  unfold refStep
  rw [splitFunc_token h]
  simp only [Bool.false_eq_true, if_false, hl, if_true]
  rw [h.1, List.drop_append]
  simp

theorem refStep_empty {d : UInt8} (r : List UInt8) (b : Bool) (h : IsDelim d) :
    refStep (7 :: d :: r) b false = some ([], r, b) :=
  refStep_tok b (t := []) ⟨rfl, h, noDelim_nil⟩ (by simp)

theorem refStep_silent {w : List UInt8} (hn : NoDelim w) (hl : w.length < 65536) (l : Bool) :
    refStep w false l = none := by
  unfold refStep
  rw [splitFunc_noDelim hn]
  simp; omega

theorem refStep_eof {w : List UInt8} {b : Bool} (h : (NoDelim w ∧ b = true) ∨
      (NoDelim (w.take 65536) ∧ 65536 ≤ w.length)) :
    refStep w b false = some ([], [], true) := by
  unfold refStep
  rcases h with ⟨h, rfl⟩ | ⟨h, hl⟩
  · rw [splitFunc_noDelim h]; simp
  · rcases noDelim_or_token w with hn | ⟨t, d, r, ht⟩
    · rw [splitFunc_noDelim hn]; simp [hl]
    · rw [splitFunc_token ht]
      have : ¬ t.length + 2 ≤ 65536 := fun hl => token_short_not_long ht hl h
      simp only [this, Bool.false_eq_true, if_false]

@[simp] theorem refStep_late (w : List UInt8) (b : Bool) : refStep w b true = none := by
  simp [refStep]

theorem refStep_nil : refStep [] true false = some ([], [], true) := rfl

theorem scanTimeout_ref {s : Scanner} {c : Conn} {w : List UInt8} {b : Bool}
    (h : Repr' s c.rd w b) :
    ∃ res s' c', scanTimeout s c = some (res, s', c') ∧ c'.late = c.late.tail ∧
      match refStep w b (c.late.headD false) with
      | none => res = ([], some .timeout)
      | some (t, w', b') => res = (t, none) ∧ Repr' s' c'.rd w' b' := by
  rcases h with ⟨hi, hne, rfl, rfl⟩ | ⟨he, hn, rfl, rfl⟩
  · rcases stream_cases (avail s c.rd) (ends s c.rd) with ⟨tok, d, rest, ht, hl⟩ | ⟨hn, hl, hb⟩ | h
    · obtain ⟨s', rd', h1, h2, h3, h4, h5⟩ := scanTimeout_token hi hne ht hl
      refine ⟨_, _, _, h5, rfl, ?_⟩
      cases hh : c.late.headD false
      · rw [refStep_tok _ ht hl]
        exact ⟨by simp, .inl ⟨h1, h4, h2, h3⟩⟩
      · simp
    · obtain ⟨r, h1⟩ := scanTimeout_silent hi hne hn hl hb
      refine ⟨_, _, _, h1, rfl, ?_⟩
      rw [hb, refStep_silent hn hl]
    · obtain ⟨s', rd', h1, h2, h3, h4⟩ := scanTimeout_eof hi h
      refine ⟨_, _, _, h4, rfl, ?_⟩
      cases hh : c.late.headD false
      · rw [refStep_eof h]
        exact ⟨by simp, .inr ⟨h1, h2, rfl, rfl⟩⟩
      · simp
  · refine ⟨_, _, _, scanTimeout_dead he hn, rfl, ?_⟩
    cases hh : c.late.headD false
    · rw [refStep_nil]
      exact ⟨by simp, .inr ⟨he, noDelim_nil, rfl, rfl⟩⟩
    · simp

/-- Reference for `ReadPacket`. -/
def refRead (w : List UInt8) (b : Bool) (late : List Bool) (expect : Bool) : Go Packet :=
  match refStep w b (late.headD false) with
  | none => .ret {} (some .timeout)
  | some (t, w, b) =>
    if t ≠ [] then .ret {} (some .scanInput)
    else if !expect then .ret {} none
    else
      match refStep w b (late.tail.headD false) with
      | none => .ret {} (some .timeout)
      | some (t, w, b) =>
        if t ≠ [] then .ret {} (some .scanInput)
        else
          match refStep w b (late.tail.tail.headD false) with
          | none => .ret {} (some .timeout)
          | some (t, _, _) =>
            if t = [] then .ret {} none
            else if t.length < 4 then .ret {} (some .tooShort)
            else unmarshalPacket t

theorem repr'_init {rd : List RdEv} (h : NoEmptyReads rd) :
    Repr' {} rd (delivered rd) (breaks rd) :=
  .inl ⟨scanInv_init, h, by simp [avail], by simp [ends]⟩

theorem readPacket_ref {c : Conn} (h : NoEmptyReads c.rd) (e : Bool) :
    (readPacket c e).1 = refRead (delivered c.rd) (breaks c.rd) c.late e := by
  unfold readPacket refRead
  obtain ⟨⟨t1, e1⟩, s1, c1, h1, hl1, h1'⟩ := scanTimeout_ref (repr'_init h)
  rw [h1]
  cases hr1 : refStep (delivered c.rd) (breaks c.rd) (c.late.headD false) with
  | none => rw [hr1] at h1'; simp at h1'; simp [h1'.2]
  | some x =>
    obtain ⟨u1, w1, b1⟩ := x
    rw [hr1] at h1'
    simp only [Prod.mk.injEq] at h1'
    obtain ⟨⟨rfl, rfl⟩, hrep1⟩ := h1'
    simp only
    by_cases ht1 : t1 = []
    · subst ht1
      cases e with
      | false => simp
      | true =>
        simp only [List.length_nil, ne_eq, not_true_eq_false, if_false, Bool.not_true,
          Bool.false_eq_true]
        obtain ⟨⟨t2, e2⟩, s2, c2, h2, hl2, h2'⟩ := scanTimeout_ref hrep1
        rw [h2]
        rw [hl1] at h2'
        cases hr2 : refStep w1 b1 (c.late.tail.headD false) with
        | none => rw [hr2] at h2'; simp at h2'; simp [h2'.2]
        | some x =>
          obtain ⟨u2, w2, b2⟩ := x
          rw [hr2] at h2'
          simp only [Prod.mk.injEq] at h2'
          obtain ⟨⟨rfl, rfl⟩, hrep2⟩ := h2'
          simp only
          by_cases ht2 : t2 = []
          · subst ht2
            simp only [List.length_nil, ne_eq, not_true_eq_false, if_false]
            obtain ⟨⟨t3, e3⟩, s3, c3, h3, hl3, h3'⟩ := scanTimeout_ref hrep2
            rw [h3]
            rw [hl2, hl1] at h3'
            cases hr3 : refStep w2 b2 (c.late.tail.tail.headD false) with
            | none => rw [hr3] at h3'; simp at h3'; simp [h3'.2]
            | some x =>
              obtain ⟨u3, w3, b3⟩ := x
              rw [hr3] at h3'
              simp only [Prod.mk.injEq] at h3'
              obtain ⟨⟨rfl, rfl⟩, hrep3⟩ := h3'
              simp only
              by_cases ht3 : t3 = []
              · subst ht3; simp
              · have hp : 0 < t3.length := List.length_pos_iff.2 ht3
                simp only [ht3, if_false]
                by_cases h4 : t3.length < 4
                · simp [hp, h4]
                · have h5 : t3.length ≥ 4 := by omega
                  simp [hp, h4, h5]
          · simp [ht2]
    · simp [ht1]

end Comfo
