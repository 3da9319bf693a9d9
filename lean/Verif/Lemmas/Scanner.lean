import Verif.Spec.Script
/-! Helper lemmas about the split function and the scanner. -/
namespace Comfo
open Spec

theorem noDelim_nil : NoDelim [] := by
  intro x d y h; simp at h

theorem noDelim_cons {a : UInt8} {w : List UInt8} :
    NoDelim (a :: w) ↔ (a = 7 → ∀ d y, w = d :: y → ¬ IsDelim d) ∧ NoDelim w := by
  constructor
  · intro h
    refine ⟨fun ha d y hw => h [] d y (by simp [ha, hw]), fun x d y hw => h (a :: x) d y (by simp [hw])⟩
  · rintro ⟨h1, h2⟩ x d y hw
    cases x with
    | nil => simp at hw; exact h1 hw.1 d y hw.2
    | cons b x => simp at hw; exact h2 x d y hw.2

theorem noDelim_left {a b : List UInt8} (h : NoDelim (a ++ b)) : NoDelim a := by
  intro x d y he; exact h x d (y ++ b) (by simp [he])

theorem noDelim_right {a b : List UInt8} (h : NoDelim (a ++ b)) : NoDelim b := by
  intro x d y he; exact h (a ++ x) d y (by simp [he])

theorem splitFrom_token {w tok : List UInt8} {d : UInt8} {rest : List UInt8}
    (h : Token w tok d rest) (i : Nat) (pre : List UInt8) :
    splitFrom i pre w = some (i + tok.length + 2, pre ++ tok) := by
  obtain ⟨rfl, hd, hn⟩ := h
  induction tok generalizing i pre with
  | nil =>
    have hd' : d = ackB ∨ d = startB ∨ d = endB := hd
    simp [splitFrom, esc, hd']
  | cons a t ih =>
    rw [noDelim_cons] at hn
    have key : splitFrom i pre (a :: t ++ 7 :: d :: rest) =
        splitFrom (i + 1) (pre ++ [a]) (t ++ 7 :: d :: rest) := by
      simp only [List.cons_append, splitFrom]
      by_cases ha : a = esc
      · simp only [ha, if_true]
        cases t with
        | nil => simp [esc, ackB, startB, endB]
        | cons c t =>
          have := hn.1 ha c t rfl
          have hc : ¬ (c = ackB ∨ c = startB ∨ c = endB) := this
          simp [hc]
      · simp [ha]
    rw [key, ih _ _ hn.2]
    simp; omega

theorem splitFrom_noDelim {w : List UInt8} (h : NoDelim w) (i : Nat) (pre : List UInt8) :
    splitFrom i pre w = none := by
  induction w generalizing i pre with
  | nil => rfl
  | cons a w ih =>
    rw [noDelim_cons] at h
    simp only [splitFrom]
    by_cases ha : a = esc
    · simp only [ha, if_true]
      cases w with
      | nil => simp; exact ih h.2 _ _
      | cons c w =>
        have hc : ¬ (c = ackB ∨ c = startB ∨ c = endB) := h.1 ha c w rfl
        simp [hc]; exact ih h.2 _ _
    · simp [ha]; exact ih h.2 _ _

/-- Every byte string has no delimiter or a first one. -/
theorem noDelim_or_token (w : List UInt8) :
    NoDelim w ∨ ∃ tok d rest, Token w tok d rest := by
  induction w with
  | nil => exact .inl noDelim_nil
  | cons a w ih =>
    by_cases h : a = 7 ∧ ∃ d y, w = d :: y ∧ IsDelim d
    · obtain ⟨rfl, d, y, rfl, hd⟩ := h
      exact .inr ⟨[], d, y, rfl, hd, noDelim_nil⟩
    · have h' : a = 7 → ∀ d y, w = d :: y → ¬ IsDelim d :=
        fun ha d y hw hd => h ⟨ha, d, y, hw, hd⟩
      rcases ih with hn | ⟨tok, d, rest, rfl, hd, hn⟩
      · exact .inl (noDelim_cons.2 ⟨h', hn⟩)
      · refine .inr ⟨a :: tok, d, rest, rfl, hd, noDelim_cons.2 ⟨?_, hn⟩⟩
        intro ha d' y hw
        exact h' ha d' (y ++ 7 :: d :: rest) (by simp [hw])

theorem splitFunc_token {w tok : List UInt8} {d : UInt8} {rest : List UInt8}
    (h : Token w tok d rest) : splitFunc w = some (tok.length + 2, tok) := by
  simp [splitFunc, splitFrom_token h]

theorem splitFunc_noDelim {w : List UInt8} (h : NoDelim w) : splitFunc w = none :=
  splitFrom_noDelim h 0 []

theorem splitFunc_some {w : List UInt8} {adv : Nat} {tok : List UInt8}
    (h : splitFunc w = some (adv, tok)) :
    adv = tok.length + 2 ∧ ∃ d rest, Token w tok d rest := by
  rcases noDelim_or_token w with hn | ⟨tok', d, rest, ht⟩
  · rw [splitFunc_noDelim hn] at h; simp at h
  · rw [splitFunc_token ht] at h; simp at h
    obtain ⟨h1, rfl⟩ := h
    exact ⟨by omega, d, rest, ht⟩

theorem splitFunc_none {w : List UInt8} (h : splitFunc w = none) : NoDelim w := by
  rcases noDelim_or_token w with hn | ⟨tok', d, rest, ht⟩
  · exact hn
  · rw [splitFunc_token ht] at h; simp at h

/-- The first delimiter is unique. -/
theorem token_unique {w t t' : List UInt8} {d d' : UInt8} {r r' : List UInt8}
    (h : Token w t d r) (h' : Token w t' d' r') : t = t' ∧ d = d' ∧ r = r' := by
  have a := splitFunc_token h
  rw [splitFunc_token h'] at a
  simp at a
  obtain ⟨-, rfl⟩ := a
  have e := h.1.symm.trans h'.1
  have e := List.append_cancel_left e
  simp at e
  exact ⟨rfl, e⟩

theorem token_append {w t : List UInt8} {d : UInt8} {r : List UInt8} (h : Token w t d r)
    (x : List UInt8) : Token (w ++ x) t d (r ++ x) := by
  obtain ⟨rfl, hd, hn⟩ := h
  exact ⟨by simp, hd, hn⟩

theorem token_not_noDelim {w t : List UInt8} {d : UInt8} {r : List UInt8} (h : Token w t d r) :
    ¬ NoDelim w := by
  intro hn; exact hn t d r h.1 h.2.1

/-- Scanner buffer invariant. -/
def ScanInv (s : Scanner) : Prop :=
  s.start + s.win.length ≤ s.cap ∧ s.cap ≤ 65536 ∧ (s.cap = 0 ∨ 4096 ≤ s.cap)

theorem scanInv_init : ScanInv {} := by simp [ScanInv]

theorem makeRoom_some {s s' : Scanner} (hi : ScanInv s) (h : makeRoom s = some s') :
    ScanInv s' ∧ s'.win = s.win ∧ s'.err = s.err ∧ s'.start + s'.win.length < s'.cap := by
  obtain ⟨h1, h2, h3⟩ := hi
  unfold makeRoom at h
  simp only [maxTokenSize, startBufSize] at h
  by_cases hs : s.start > 0 ∧ (s.start + s.win.length = s.cap ∨ s.start > s.cap / 2)
  · simp only [hs] at h
    simp at h
    split at h
    · next hf =>
      split at h
      · simp at h
      · next hc =>
        simp at h; subst h
        refine ⟨⟨?_, ?_, ?_⟩, rfl, rfl, ?_⟩ <;> simp <;> (try split) <;> omega
    · simp at h; subst h
      refine ⟨⟨?_, ?_, ?_⟩, rfl, rfl, ?_⟩ <;> simp <;> omega
  · simp only [hs] at h
    simp at h
    split at h
    · next hf =>
      split at h
      · simp at h
      · next hc =>
        simp at h; subst h
        refine ⟨⟨?_, ?_, ?_⟩, rfl, rfl, ?_⟩ <;> simp <;> (try split) <;> omega
    · simp at h; subst h
      refine ⟨⟨?_, ?_, ?_⟩, rfl, rfl, ?_⟩ <;> omega

theorem makeRoom_none {s : Scanner} (hi : ScanInv s) :
    makeRoom s = none ↔ s.win.length = 65536 := by
  obtain ⟨h1, h2, h3⟩ := hi
  unfold makeRoom
  simp only [maxTokenSize, startBufSize]
  by_cases hs : s.start > 0 ∧ (s.start + s.win.length = s.cap ∨ s.start > s.cap / 2)
  · simp only [hs]
    simp
    split
    · next hf =>
      split
      · simp; omega
      · simp; omega
    · simp; omega
  · simp only [hs]
    simp
    split
    · next hf =>
      split
      · simp; omega
      · simp; omega
    · simp; omega

/-- What the inner read loop can do, for any script. -/
theorem readLoop_sound {room loop : Nat} (hr : 0 < room) (rd : List RdEv) :
    match readLoop room loop rd with
    | .blocked _ => delivered rd = [] ∧ breaks rd = false
    | .got bs err rest =>
      bs.length ≤ room ∧ (err = false → bs ≠ []) ∧
      ∃ lost, delivered rd = bs ++ (if err then lost else delivered rest) ∧
        (err = false → rdSize rest < rdSize rd ∧ breaks rest = breaks rd) ∧
        (err = true → NoEmptyReads rd → breaks rd = true ∧ lost = []) ∧
        (NoEmptyReads rd → NoEmptyReads rest) := by
  induction rd generalizing loop with
  | nil => simp [readLoop, Nat.ne_of_gt hr, delivered, breaks]
  | cons ev r ih =>
    have hr0 : room ≠ 0 := Nat.ne_of_gt hr
    have sub : NoEmptyReads (ev :: r) → NoEmptyReads r :=
      fun h bs hb => h bs (List.mem_cons_of_mem _ hb)
    unfold readLoop
    simp only [hr0, if_false]
    cases ev with
    | stall => simp [delivered, breaks]
    | data bs =>
      simp only
      by_cases hb : bs = []
      · subst hb
        simp only [if_true]
        by_cases hl : loop + 1 > 100
        · rw [if_pos hl]
          refine ⟨by simp, by simp, delivered r, by simp [delivered], by simp, ?_, sub⟩
          intro _ h; exact absurd rfl (h [] (by simp))
        · rw [if_neg hl]
          have := ih (loop := loop + 1)
          split at this
          · simpa [delivered, breaks] using this
          · next bs err rest h =>
            obtain ⟨h1, h2, lost, h3, h4, h5, h8⟩ := this
            refine ⟨h1, h2, lost, by simpa [delivered] using h3, ?_, ?_, fun h => h8 (sub h)⟩
            · intro he
              obtain ⟨h6, h7⟩ := h4 he
              refine ⟨by simp [rdSize]; omega, by simpa [breaks] using h7⟩
            · intro he h; exact absurd rfl (h [] (by simp))
      · rw [if_neg hb]
        by_cases hle : bs.length ≤ room
        · rw [if_pos hle]
          refine ⟨hle, fun _ => hb, [], by simp [delivered], ?_, by simp, sub⟩
          intro _; exact ⟨by simp [rdSize], by simp [breaks]⟩
        · rw [if_neg hle]
          refine ⟨by simp [Nat.min_le_left], ?_, [], ?_, ?_, by simp, ?_⟩
          · intro _ he
            have := congrArg List.length he
            rw [List.length_take, List.length_nil] at this; omega
          · simp only [delivered, Bool.false_eq_true, if_false]
            rw [← List.append_assoc, List.take_append_drop]
          · intro _
            refine ⟨by simp [rdSize]; omega, by simp [breaks]⟩
          · intro h bs' hm
            simp at hm
            rcases hm with rfl | hm
            · intro he
              have := congrArg List.length he
              simp at this; omega
            · exact h _ (List.mem_cons_of_mem _ hm)
    | fail bs =>
      simp only
      by_cases hle : bs.length ≤ room
      · rw [if_pos hle]
        exact ⟨hle, by simp, [], by simp [delivered], by simp, by simp [breaks], sub⟩
      · rw [if_neg hle]
        refine ⟨by simp [Nat.min_le_left], ?_, [], by simp [delivered], ?_, by simp, ?_⟩
        · intro _ he
          have := congrArg List.length he
          rw [List.length_take, List.length_nil] at this; omega
        · intro _
          refine ⟨by simp [rdSize]; omega, by simp [breaks]⟩
        · intro h bs' hm
          simp at hm
          exact h _ (List.mem_cons_of_mem _ hm)

/-- The bytes still to come for this scanner. -/
def avail (s : Scanner) (rd : List RdEv) : List UInt8 :=
  s.win ++ (if s.err then [] else delivered rd)

/-- Whether the input of this scanner ends with a failure. -/
def ends (s : Scanner) (rd : List RdEv) : Bool := s.err || breaks rd

/-- Full description of the result of one `Scan`, for any script and any buffer state. -/
def ScanPost (s : Scanner) (rd : List RdEv) : ScanRes → Prop
    | .diverged => False
    | .blocked _ => NoDelim (avail s rd) ∧ ends s rd = false ∧ (avail s rd).length < 65536
    | .done none s' _ =>
      s'.err = true ∧ ScanInv s' ∧ NoDelim s'.win ∧
      (NoEmptyReads rd → (NoDelim (avail s rd) ∧ ends s rd = true) ∨
        (NoDelim ((avail s rd).take 65536) ∧ 65536 ≤ (avail s rd).length))
    | .done (some tok) s' rd' =>
      ScanInv s' ∧ tok.length + 2 ≤ 65536 ∧
      ∃ d lost, Token (avail s rd) tok d (avail s' rd' ++ lost) ∧
        (NoEmptyReads rd → lost = [] ∧ ends s' rd' = ends s rd ∧ NoEmptyReads rd')

theorem scanLoop_spec (n : Nat) (s : Scanner) (rd : List RdEv) (hi : ScanInv s)
    (hn : (if s.err then 1 else rdSize rd + 2) ≤ n) : ScanPost s rd (scanLoop n s rd) := by
  unfold ScanPost
  induction n generalizing s rd with
  | zero => split at hn <;> omega
  | succ n ih =>
    unfold scanLoop
    cases hsp : splitFunc s.win with
    | some at' =>
      obtain ⟨adv, tok⟩ := at'
      obtain ⟨hadv, d, rest, ht⟩ := splitFunc_some hsp
      simp only
      have hlen : s.win.length = tok.length + 2 + rest.length := by rw [ht.1]; simp; omega
      have hdrop : s.win.drop adv = rest := by
        rw [ht.1, hadv, List.drop_append]; simp
      obtain ⟨h1, h2, h3⟩ := hi
      refine ⟨⟨?_, h2, h3⟩, by omega, d, [], ?_, ?_⟩
      · simp; omega
      · have := token_append ht (if s.err then [] else delivered rd)
        simpa [avail, hdrop] using this
      · intro h; exact ⟨rfl, rfl, h⟩
    | none =>
      have hnd := splitFunc_none hsp
      simp only
      by_cases he : s.err = true
      · simp only [he, if_true]
        refine ⟨by simp [he], ⟨?_, hi.2.1, hi.2.2⟩, noDelim_nil, ?_⟩
        · simp
        · intro _; left; simp [avail, ends, he, hnd]
      · have he' : s.err = false := by simpa using he
        simp only [he', Bool.false_eq_true, if_false] at hn ⊢
        cases hmr : makeRoom s with
        | none =>
          simp only
          have hl := (makeRoom_none hi).1 hmr
          refine ⟨by simp, hi, hnd, fun _ => .inr ⟨?_, ?_⟩⟩
          · simp only [avail]; rw [← hl]; simp [hnd]
          · simp [avail]; omega
        | some s1 =>
          simp only
          obtain ⟨hi1, hw1, he1, hlt⟩ := makeRoom_some hi hmr
          have hrs := readLoop_sound (room := s1.cap - (s1.start + s1.win.length)) (loop := 0)
            (by omega) rd
          split at hrs
          · next rest h =>
            rw [h]
            simp only
            have : avail s rd = s.win := by simp [avail, hrs.1]
            rw [this]
            refine ⟨hnd, by simp [ends, he', hrs.2], ?_⟩
            have := hi1.2.1; rw [← hw1]; omega
          · next bs err rest h =>
            rw [h]
            simp only
            obtain ⟨hbl, hbne, lost, hdel, hok, hbad, hnee⟩ := hrs
            have hi2 : ScanInv { s1 with win := s1.win ++ bs, err := err } := by
              refine ⟨?_, hi1.2.1, hi1.2.2⟩
              simp; omega
            have hav : ∃ lost', avail s rd =
                avail { s1 with win := s1.win ++ bs, err := err } rest ++ lost' ∧
                (err = false → lost' = []) ∧ (NoEmptyReads rd → lost' = []) := by
              cases err with
              | false => exact ⟨[], by simp [avail, he', hw1, hdel], by simp, by simp⟩
              | true =>
                exact ⟨lost, by simp [avail, he', hw1, hdel], by simp,
                  fun hne => (hbad rfl hne).2⟩
            obtain ⟨lost', hav, hl0, hl1⟩ := hav
            have hends : NoEmptyReads rd →
                ends { s1 with win := s1.win ++ bs, err := err } rest = ends s rd := by
              intro hne
              cases err with
              | false => simp [ends, he', (hok rfl).2]
              | true => simp [ends, (hbad rfl hne).1]
            have hfuel : (if err then 1 else rdSize rest + 2) ≤ n := by
              cases err with
              | false => have := (hok rfl).1; simp; omega
              | true => simp; omega
            have key := ih { s1 with win := s1.win ++ bs, err := err } rest hi2 hfuel
            generalize hsl : scanLoop n { s1 with win := s1.win ++ bs, err := err } rest = res
              at key
            match res, key with
            | .diverged, key => exact key
            | .blocked rr, key =>
              simp only at key ⊢
              obtain ⟨k1, k2, k3⟩ := key
              have herr : err = false := by
                cases err with
                | false => rfl
                | true => simp [ends] at k2
              rw [hav, hl0 herr, List.append_nil]
              refine ⟨k1, ?_, k3⟩
              subst herr
              simp only [ends, he', Bool.false_or] at k2 ⊢
              rw [← (hok rfl).2]; exact k2
            | .done none s' rr, key =>
              simp only at key ⊢
              obtain ⟨k1, k2, k3, k4⟩ := key
              refine ⟨k1, k2, k3, fun hne => ?_⟩
              rw [hav, hl1 hne, List.append_nil, ← hends hne]
              exact k4 (hnee hne)
            | .done (some tok) s' rr, key =>
              simp only at key ⊢
              obtain ⟨k1, k2, d, lost2, k3, k4⟩ := key
              refine ⟨k1, k2, d, lost2 ++ lost', ?_, ?_⟩
              · rw [hav, ← List.append_assoc]; exact token_append k3 lost'
              · intro hne
                obtain ⟨a, b, c⟩ := k4 (hnee hne)
                exact ⟨by simp [a, hl1 hne], by rw [b, hends hne], c⟩

end Comfo
