import Verif.Lemmas.Scanner
import Verif.Lemmas.Proto
/-! Helper lemmas: one `Scan` classified by the bytes to come; `readPacket` on top of it. -/
namespace Comfo
open Spec

theorem scan_spec (s : Scanner) (rd : List RdEv) (hi : ScanInv s) :
    ScanPost s rd (scan s rd) :=
  scanLoop_spec (rdSize rd + 2) s rd hi (by split <;> omega)

theorem scan_ne_diverged (s : Scanner) (rd : List RdEv) (hi : ScanInv s) :
    scan s rd ≠ .diverged := by
  intro h
  have := scan_spec s rd hi
  rw [h] at this; exact this

theorem token_short_not_long {w t r : List UInt8} {d : UInt8} (h : Token w t d r)
    (hl : t.length + 2 ≤ 65536) : ¬ NoDelim (w.take 65536) := by
  intro hn
  refine hn t d (r.take (65536 - (t.length + 2))) ?_ h.2.1
  rw [h.1, List.take_append, List.take_of_length_le (by omega)]
  have e : 65536 - t.length = (65536 - (t.length + 2)) + 2 := by omega
  rw [e]; rfl

theorem scan_token {s : Scanner} {rd : List RdEv} {tok rest : List UInt8} {d : UInt8}
    (hi : ScanInv s) (hne : NoEmptyReads rd) (ht : Token (avail s rd) tok d rest)
    (hl : tok.length + 2 ≤ 65536) :
    ∃ s' rd', scan s rd = .done (some tok) s' rd' ∧ ScanInv s' ∧ avail s' rd' = rest ∧
      ends s' rd' = ends s rd ∧ NoEmptyReads rd' := by
  have h := scan_spec s rd hi
  generalize scan s rd = res at h
  match res, h with
  | .blocked _, h => exact absurd h.1 (token_not_noDelim ht)
  | .done none _ _, h =>
    rcases h.2.2.2 hne with ⟨h1, -⟩ | ⟨h1, -⟩
    · exact absurd h1 (token_not_noDelim ht)
    · exact absurd h1 (token_short_not_long ht hl)
  | .done (some tok') s' rd', h =>
    obtain ⟨h1, h2, d', lost, h3, h4⟩ := h
    obtain ⟨rfl, h5, h6⟩ := h4 hne
    rw [List.append_nil] at h3
    obtain ⟨rfl, rfl, rfl⟩ := token_unique ht h3
    exact ⟨s', rd', rfl, h1, rfl, h5, h6⟩

theorem scan_silent {s : Scanner} {rd : List RdEv}
    (hi : ScanInv s) (hne : NoEmptyReads rd) (hn : NoDelim (avail s rd))
    (hl : (avail s rd).length < 65536) (he : ends s rd = false) :
    ∃ r, scan s rd = .blocked r := by
  have h := scan_spec s rd hi
  generalize scan s rd = res at h
  match res, h with
  | .blocked r, _ => exact ⟨r, rfl⟩
  | .done none _ _, h =>
    rcases h.2.2.2 hne with ⟨-, h1⟩ | ⟨-, h1⟩
    · rw [he] at h1; simp at h1
    · omega
  | .done (some tok') s' rd', h =>
    obtain ⟨h1, h2, d', lost, h3, h4⟩ := h
    exact absurd hn (token_not_noDelim h3)

theorem scan_eof {s : Scanner} {rd : List RdEv} (hi : ScanInv s)
    (h : (NoDelim (avail s rd) ∧ ends s rd = true) ∨
      (NoDelim ((avail s rd).take 65536) ∧ 65536 ≤ (avail s rd).length)) :
    ∃ s' r, scan s rd = .done none s' r ∧ s'.err = true ∧ ScanInv s' ∧ NoDelim s'.win := by
  have h' := scan_spec s rd hi
  generalize scan s rd = res at h'
  match res, h' with
  | .blocked r, h' =>
    rcases h with h | h
    · rw [h'.2.1] at h; simp at h
    · have := h'.2.2; omega
  | .done none s' r, h' => exact ⟨s', r, rfl, h'.1, h'.2.1, h'.2.2.1⟩
  | .done (some tok') s' rd', h' =>
    obtain ⟨h1, h2, d', lost, h3, h4⟩ := h'
    rcases h with h | h
    · exact absurd h.1 (token_not_noDelim h3)
    · exact absurd h.1 (token_short_not_long h3 h2)

theorem scan_dead {s : Scanner} (rd : List RdEv) (he : s.err = true) (hn : NoDelim s.win) :
    scan s rd = .done none { s with win := [], start := 0 } rd := by
  unfold scan scanLoop
  rw [splitFunc_noDelim hn]
  simp [he]

/-- Every stream falls into one of the three classes. -/
theorem stream_cases (w : List UInt8) (b : Bool) :
    (∃ tok d rest, Token w tok d rest ∧ tok.length + 2 ≤ 65536) ∨
    (NoDelim w ∧ w.length < 65536 ∧ b = false) ∨
    ((NoDelim w ∧ b = true) ∨ (NoDelim (w.take 65536) ∧ 65536 ≤ w.length)) := by
  rcases noDelim_or_token w with hn | ⟨tok, d, rest, ht⟩
  · cases b with
    | true => exact .inr (.inr (.inl ⟨hn, rfl⟩))
    | false =>
      by_cases hl : w.length < 65536
      · exact .inr (.inl ⟨hn, hl, rfl⟩)
      · refine .inr (.inr (.inr ⟨?_, by omega⟩))
        rw [← List.take_append_drop 65536 w] at hn
        exact noDelim_left hn
  · by_cases hl : tok.length + 2 ≤ 65536
    · exact .inl ⟨tok, d, rest, ht, hl⟩
    · refine .inr (.inr (.inr ⟨?_, ?_⟩))
      · intro x d' y he hd'
        have hw : w = x ++ 7 :: d' :: (y ++ w.drop 65536) := by
          calc w = w.take 65536 ++ w.drop 65536 := (List.take_append_drop _ _).symm
            _ = _ := by rw [he]; simp
        rcases noDelim_or_token x with hx | ⟨t2, d2, r2, h2⟩
        · have h3 : Token w x d' (y ++ w.drop 65536) := ⟨hw, hd', hx⟩
          have := (token_unique ht h3).1
          have hlen := congrArg List.length he
          simp at hlen
          rw [this] at hl; omega
        · have h3 : Token w t2 d2 (r2 ++ 7 :: d' :: (y ++ w.drop 65536)) := by
            have h4 := token_append h2 (7 :: d' :: (y ++ w.drop 65536)); rw [← hw] at h4; exact h4
          have := (token_unique ht h3).1
          have hlen := congrArg List.length he
          have hlen2 := congrArg List.length h2.1
          simp at hlen hlen2
          rw [this] at hl; omega
      · rw [ht.1]; simp; omega

/-- Two scanners that will see the same bytes (or both nothing any more). -/
def Same (s : Scanner) (rd : List RdEv) (s' : Scanner) (rd' : List RdEv) : Prop :=
  (ScanInv s ∧ ScanInv s' ∧ NoEmptyReads rd ∧ NoEmptyReads rd' ∧
    avail s rd = avail s' rd' ∧ ends s rd = ends s' rd') ∨
  (s.err = true ∧ s'.err = true ∧ NoDelim s.win ∧ NoDelim s'.win)

theorem scan_same {s s' : Scanner} {rd rd' : List RdEv} (h : Same s rd s' rd') :
    (∃ r r', scan s rd = .blocked r ∧ scan s' rd' = .blocked r') ∨
    (∃ tok t r t' r', scan s rd = .done tok t r ∧ scan s' rd' = .done tok t' r' ∧
      Same t r t' r') := by
  rcases h with ⟨hi, hi', hne, hne', hav, hen⟩ | ⟨he, he', hn, hn'⟩
  · rcases stream_cases (avail s rd) (ends s rd) with ⟨tok, d, rest, ht, hl⟩ | ⟨hn, hl, hb⟩ | h
    · obtain ⟨t, r, h1, h2, h3, h4, h5⟩ := scan_token hi hne ht hl
      obtain ⟨t', r', h1', h2', h3', h4', h5'⟩ := scan_token hi' hne' (hav ▸ ht) hl
      refine .inr ⟨_, _, _, _, _, h1, h1', .inl ⟨h2, h2', h5, h5', by rw [h3, h3'], ?_⟩⟩
      rw [h4, h4', hen]
    · obtain ⟨r, h1⟩ := scan_silent hi hne hn hl hb
      obtain ⟨r', h1'⟩ := scan_silent hi' hne' (hav ▸ hn) (hav ▸ hl) (hen ▸ hb)
      exact .inl ⟨r, r', h1, h1'⟩
    · obtain ⟨t, r, h1, h2, h3, h4⟩ := scan_eof hi h
      obtain ⟨t', r', h1', h2', h3', h4'⟩ := scan_eof (rd := rd') hi' (by
        rw [← hav, ← hen]; exact h)
      exact .inr ⟨_, _, _, _, _, h1, h1', .inr ⟨h2, h2', h4, h4'⟩⟩
  · refine .inr ⟨_, _, _, _, _, scan_dead rd he hn, scan_dead rd' he' hn', .inr ⟨he, he', ?_, ?_⟩⟩
    · exact noDelim_nil
    · exact noDelim_nil

/-! ## `scanTimeout` -/

theorem scanTimeout_token {s : Scanner} {c : Conn} {tok rest : List UInt8} {d : UInt8}
    (hi : ScanInv s) (hne : NoEmptyReads c.rd) (ht : Token (avail s c.rd) tok d rest)
    (hl : tok.length + 2 ≤ 65536) :
    ∃ s' rd', ScanInv s' ∧ avail s' rd' = rest ∧
      ends s' rd' = ends s c.rd ∧ NoEmptyReads rd' ∧
      scanTimeout s c = some ((if c.late.headD false then ([], some .timeout) else (tok, none)), s',
        { c with rd := rd', late := c.late.tail }) := by
  obtain ⟨s', rd', h1, h2, h3, h4, h5⟩ := scan_token hi hne ht hl
  refine ⟨s', rd', h2, h3, h4, h5, ?_⟩
  unfold scanTimeout
  rw [h1]
  cases hh : c.late.headD false <;> simp [waitTimeout]

theorem scanTimeout_silent {s : Scanner} {c : Conn}
    (hi : ScanInv s) (hne : NoEmptyReads c.rd) (hn : NoDelim (avail s c.rd))
    (hl : (avail s c.rd).length < 65536) (he : ends s c.rd = false) :
    ∃ r, scanTimeout s c = some (([], some .timeout), s,
      { c with rd := r, late := c.late.tail }) := by
  obtain ⟨r, h1⟩ := scan_silent hi hne hn hl he
  refine ⟨r, ?_⟩
  unfold scanTimeout
  rw [h1]
  simp [waitTimeout]

theorem scanTimeout_eof {s : Scanner} {c : Conn} (hi : ScanInv s)
    (h : (NoDelim (avail s c.rd) ∧ ends s c.rd = true) ∨
      (NoDelim ((avail s c.rd).take 65536) ∧ 65536 ≤ (avail s c.rd).length)) :
    ∃ s' rd', s'.err = true ∧ NoDelim s'.win ∧ ScanInv s' ∧
      scanTimeout s c = some (([], if c.late.headD false then some .timeout else none), s',
        { c with rd := rd', late := c.late.tail }) := by
  obtain ⟨s', rd', h1, h2, h3, h4⟩ := scan_eof hi h
  refine ⟨s', rd', h2, h4, h3, ?_⟩
  unfold scanTimeout
  rw [h1]
  cases hh : c.late.headD false <;> simp [waitTimeout]

theorem scanTimeout_dead {s : Scanner} {c : Conn} (he : s.err = true) (hn : NoDelim s.win) :
    scanTimeout s c = some (([], if c.late.headD false then some .timeout else none),
      { s with win := [], start := 0 }, { c with late := c.late.tail }) := by
  unfold scanTimeout
  rw [scan_dead _ he hn]
  cases hh : c.late.headD false <;> simp [waitTimeout]

/-- Soundness of one wait, for every script and timer outcome. -/
theorem scanTimeout_sound {s : Scanner} {c : Conn} (hi : ScanInv s) :
    ∃ pr e s' c', scanTimeout s c = some ((pr, e), s', c') ∧ ScanInv s' ∧
      c'.wr = c.wr ∧ c'.sent = c.sent ∧ c'.late = c.late.tail ∧
      (∀ err, e = some err → err = .timeout ∧ pr = []) ∧
      (pr ≠ [] → pr.length + 2 ≤ 65536 ∧
        ∃ d lost, Token (avail s c.rd) pr d (avail s' c'.rd ++ lost)) ∧
      (e = none → pr = [] → (s'.err = true ∧ NoDelim s'.win) ∨
        ∃ d lost, Token (avail s c.rd) [] d (avail s' c'.rd ++ lost)) := by
  have h := scan_spec s c.rd hi
  unfold scanTimeout
  generalize scan s c.rd = res at h
  match res, h with
  | .blocked r, h =>
    refine ⟨[], some .timeout, s, _, rfl, hi, rfl, rfl, rfl, ?_, by simp, by simp⟩
    intro err he; simp at he; exact ⟨he.symm, rfl⟩
  | .done none s' r, h =>
    cases hh : c.late.headD false
    · refine ⟨[], none, s', { c with rd := r, late := c.late.tail }, by simp [waitTimeout], h.2.1, rfl, rfl, rfl, by simp, by simp, ?_⟩
      intro _ _; exact .inl ⟨h.1, h.2.2.1⟩
    · refine ⟨[], some .timeout, s', { c with rd := r, late := c.late.tail }, by simp [waitTimeout], h.2.1, rfl, rfl, rfl, ?_, by simp, by simp⟩
      intro err he; simp at he; exact ⟨he.symm, rfl⟩
  | .done (some tok) s' rd', h =>
    obtain ⟨h1, h2, d, lost, h3, h4⟩ := h
    cases hh : c.late.headD false
    · refine ⟨tok, none, s', { c with rd := rd', late := c.late.tail }, by simp [waitTimeout, hh], h1, rfl, rfl, rfl, by simp, ?_, ?_⟩
      · intro _; exact ⟨h2, d, lost, h3⟩
      · intro _ hp; subst hp; exact .inr ⟨d, lost, h3⟩
    · refine ⟨[], some .timeout, s', { c with rd := rd', late := c.late.tail }, by simp [waitTimeout], h1, rfl, rfl, rfl, ?_, by simp, by simp⟩
      intro err he; simp at he; exact ⟨he.symm, rfl⟩

theorem scanTimeout_same {s s' : Scanner} {c c' : Conn} (h : Same s c.rd s' c'.rd)
    (hlate : c.late = c'.late) :
    ∃ res t d t' d', scanTimeout s c = some (res, t, d) ∧ scanTimeout s' c' = some (res, t', d') ∧
      d.late = d'.late ∧ (res.2 = none → Same t d.rd t' d'.rd) := by
  unfold scanTimeout
  rcases scan_same h with ⟨r, r', h1, h2⟩ | ⟨tok, t, r, t', r', h1, h2, h3⟩
  · rw [h1, h2]
    exact ⟨_, _, _, _, _, rfl, rfl, by simp [hlate], by simp [waitTimeout]⟩
  · rw [h1, h2, ← hlate]
    cases hh : c.late.headD false
    · exact ⟨(tok.getD [], none), t, { c with rd := r, late := c.late.tail }, t',
        { c' with rd := r', late := c.late.tail }, by simp [waitTimeout], by simp [waitTimeout],
        rfl, fun _ => h3⟩
    · exact ⟨([], some .timeout), t, { c with rd := r, late := c.late.tail }, t',
        { c' with rd := r', late := c.late.tail }, by simp [waitTimeout], by simp [waitTimeout],
        rfl, by simp⟩

end Comfo
