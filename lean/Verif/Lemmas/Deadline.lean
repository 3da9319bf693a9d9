import Verif.Spec.Deadline
import Verif.Props.Leak
/-! Helper lemmas: a query with a clock compared with a query without (C86). -/
namespace Comfo
open Spec

theorem readLoop_append {room loop : Nat} {rd rest more : List RdEv} {bs : List UInt8} {e : Bool}
    (h : readLoop room loop rd = .got bs e rest) :
    readLoop room loop (rd ++ more) = .got bs e (rest ++ more) := by
  induction rd generalizing loop with
  | nil =>
    simp only [readLoop] at h
    split at h
    · next hr => cases h; cases more <;> simp [readLoop, hr]
    · cases h
  | cons ev rd ih =>
    simp only [readLoop, List.cons_append] at h ⊢
    split at h
    · next hr => cases h; simp [hr]
    · next hr =>
      rw [if_neg hr]
      cases ev with
      | stall => cases h
      | data b =>
        simp only at h ⊢
        split at h
        · next hb =>
          rw [if_pos hb]
          split at h
          · next hl => cases h; rw [if_pos hl]
          · next hl => rw [if_neg hl]; exact ih h
        · next hb =>
          rw [if_neg hb]
          split at h
          · next hl => cases h; rw [if_pos hl]
          · next hl => cases h; rw [if_neg hl]; rfl
      | fail b =>
        simp only at h ⊢
        split at h
        · next hl => cases h; rw [if_pos hl]
        · next hl => cases h; rw [if_neg hl]; rfl

theorem scanLoop_append {n k : Nat} {s s' : Scanner} {rd rest more : List RdEv}
    {tok : Option (List UInt8)} (h : scanLoop n s rd = .done tok s' rest) :
    scanLoop (n + k) s (rd ++ more) = .done tok s' (rest ++ more) := by
  induction n generalizing s rd with
  | zero => cases h
  | succ n ih =>
    rw [Nat.add_right_comm]
    simp only [scanLoop] at h ⊢
    cases hs : splitFunc s.win with
    | some x => rw [hs] at h; cases h; rfl
    | none =>
      rw [hs] at h
      simp only at h ⊢
      split at h
      · next he => cases h; rw [if_pos he]
      · next he =>
        rw [if_neg he]
        cases hm : makeRoom s with
        | none => rw [hm] at h; cases h; rfl
        | some s₁ =>
          rw [hm] at h
          simp only at h ⊢
          cases hr : readLoop (s₁.cap - (s₁.start + s₁.win.length)) 0 rd with
          | blocked r => rw [hr] at h; cases h
          | got bs e r =>
            rw [hr] at h
            rw [readLoop_append hr]
            exact ih h

theorem rdSize_append (a b : List RdEv) : rdSize (a ++ b) = rdSize a + rdSize b := by
  induction a with
  | nil => simp [rdSize]
  | cons ev a ih => cases ev <;> simp [rdSize, ih] <;> omega

theorem scan_append {s s' : Scanner} {rd rest : List RdEv} (more : List RdEv)
    {tok : Option (List UInt8)} (h : scan s rd = .done tok s' rest) :
    scan s (rd ++ more) = .done tok s' (rest ++ more) := by
  unfold scan at h ⊢
  rw [rdSize_append, show rdSize rd + rdSize more + 2 = (rdSize rd + 2) + rdSize more by omega]
  exact scanLoop_append h

theorem scan_inv {s s' : Scanner} {rd rest : List RdEv} {tok : Option (List UInt8)} (hi : ScanInv s)
    (h : scan s rd = .done tok s' rest) : ScanInv s' := by
  have := scan_spec s rd hi
  rw [h] at this
  cases tok with
  | none => exact this.2.1
  | some t => exact this.1

theorem before_cons {D t : Nat} {ev : RdEv} {coming : List (Nat × RdEv)} (h : t < D) :
    before D ((t, ev) :: coming) = ev :: before D coming := by
  simp [before, h]

theorem before_nil {D t : Nat} {ev : RdEv} {coming : List (Nat × RdEv)}
    (ho : InOrder ((t, ev) :: coming)) (h : D ≤ t) : before D ((t, ev) :: coming) = [] := by
  simp only [before, List.map_eq_nil_iff, List.filter_eq_nil_iff]
  intro x hx
  have : t ≤ x.1 := by
    rcases List.mem_cons.1 hx with rfl | hx
    · exact Nat.le_refl _
    · exact (List.pairwise_cons.1 ho).1 x hx
  simp; omega

/-- `Scan` returns at once or when something arrives. -/
theorem scanAt_time {s : Scanner} {now : Nat} {here : List RdEv} {coming : List (Nat × RdEv)}
    {t : Nat} {x} (h : scanAt s now here coming = some (t, x)) :
    now ≤ t ∧ (t = now ∨ ∃ y ∈ coming, t = y.1) := by
  induction coming generalizing now here with
  | nil =>
    simp only [scanAt] at h
    split at h
    · cases h; exact ⟨Nat.le_refl _, .inl rfl⟩
    · cases h
  | cons y coming ih =>
    obtain ⟨u, ev⟩ := y
    simp only [scanAt] at h
    split at h
    · cases h; exact ⟨Nat.le_refl _, .inl rfl⟩
    · obtain ⟨h1, h2⟩ := ih h
      refine ⟨Nat.le_trans (Nat.le_max_left ..) h1, ?_⟩
      rcases h2 with h2 | ⟨y, hy, h2⟩
      · rcases Nat.le_total now u with hm | hm
        · exact .inr ⟨(u, ev), by simp, by rw [h2, Nat.max_eq_right hm]⟩
        · exact .inl (by rw [h2, Nat.max_eq_left hm])
      · exact .inr ⟨y, List.mem_cons_of_mem _ hy, h2⟩

/-- `Scan` with a clock returns before `D` exactly if it returns with what arrives before `D`, and
with the same result. -/
theorem scanAt_before {s : Scanner} {D now : Nat} {here : List RdEv} {coming : List (Nat × RdEv)}
    (hn : now < D) (ho : InOrder coming) :
    (∃ t tok s' here' coming', scanAt s now here coming = some (t, tok, s', here', coming') ∧ t < D ∧
      scan s (here ++ before D coming) = .done tok s' (here' ++ before D coming') ∧
      coming' <:+ coming) ∨
    ((∀ t x, scanAt s now here coming = some (t, x) → D ≤ t) ∧
      ∀ tok s' rest, scan s (here ++ before D coming) ≠ .done tok s' rest) := by
  induction coming generalizing now here with
  | nil =>
    simp only [scanAt, before, List.filter_nil, List.map_nil, List.append_nil]
    cases hs : scan s here with
    | done tok s' rest =>
      exact .inl ⟨now, tok, s', rest, [], rfl, hn, by simp, List.suffix_rfl⟩
    | blocked r => exact .inr ⟨by simp, by simp⟩
    | diverged => exact .inr ⟨by simp, by simp⟩
  | cons y coming ih =>
    obtain ⟨u, ev⟩ := y
    have step : (∀ tok s' rest, scan s here ≠ .done tok s' rest) →
        scanAt s now here ((u, ev) :: coming) = scanAt s (max now u) (here ++ [ev]) coming := by
      intro h
      simp only [scanAt]
    by_cases hd : ∃ tok s' rest, scan s here = .done tok s' rest
    · obtain ⟨tok, s', rest, hs⟩ := hd
      refine .inl ⟨now, tok, s', rest, (u, ev) :: coming, ?_, hn, scan_append _ hs, List.suffix_rfl⟩
      simp only [scanAt, hs]
    · have hd' : ∀ tok s' rest, scan s here ≠ .done tok s' rest :=
        fun tok s' rest h => hd ⟨tok, s', rest, h⟩
      rw [step hd']
      have ho' : InOrder coming := (List.pairwise_cons.1 ho).2
      by_cases hu : u < D
      · rw [before_cons hu]
        rcases ih (now := max now u) (here := here ++ [ev]) (by omega) ho' with
          ⟨t, tok, s', h', c', h1, h2, h3, h4⟩ | ⟨h1, h2⟩
        · refine .inl ⟨t, tok, s', h', c', h1, h2, ?_, h4.trans (List.suffix_cons ..)⟩
          simpa using h3
        · exact .inr ⟨h1, by simpa using h2⟩
      · rw [before_nil ho (by omega), List.append_nil]
        refine .inr ⟨fun t x h => ?_, hd'⟩
        have := (scanAt_time h).1
        omega

/-- A query on a connection with a clock and one without are at the same point, before `D`. -/
structure Aligned (D : Nat) (c : TimedConn) (u : Conn) : Prop where
  rd : u.rd = c.here ++ before D c.coming
  wr : u.wr = c.wr
  late : u.late = []
  sent : u.sent = c.sent
  inTime : c.clock < D
  order : InOrder c.coming
  noTie : ∀ x ∈ c.coming, x.1 ≠ D

theorem scanTimeoutAt_aligned {D : Nat} {c : TimedConn} {u : Conn} {s : Scanner} (h : Aligned D c u)
    (hi : ScanInv s) :
    (∃ tok s' c' u', scanTimeoutAt s D c = ((tok, none), s', c') ∧
      scanTimeout s u = some ((tok, none), s', u') ∧ Aligned D c' u' ∧ ScanInv s') ∨
    (∃ s₁ s₂ c' u', scanTimeoutAt s D c = (([], some .timeout), s₁, c') ∧
      scanTimeout s u = some (([], some .timeout), s₂, u') ∧ c'.clock = D ∧
      c'.sent = c.sent ∧ u'.sent = u.sent) := by
  have hm : max c.clock D = D := Nat.max_eq_right (Nat.le_of_lt h.inTime)
  rcases scanAt_before (s := s) (here := c.here) h.inTime h.order with
    ⟨t, tok, s', here, coming, h1, h2, h3, h4⟩ | ⟨h1, h2⟩
  · refine .inl ⟨tok.getD [], s', { c with late := c.late.tail, clock := t, here, coming },
      { u with rd := here ++ before D coming, late := [] }, ?_, ?_, ?_, scan_inv hi h3⟩
    · have e : ¬ t = D := by omega
      simp [scanTimeoutAt, h1, waitTimeout, Nat.le_of_lt h2, e]
    · unfold scanTimeout
      rw [h.rd, h3]
      simp [h.late, waitTimeout]
    · exact ⟨rfl, h.wr, rfl, h.sent, h2, h.order.sublist h4.sublist,
        fun x hx => h.noTie x (h4.mem hx)⟩
  · refine .inr ?_
    have hT : ∃ s₁, scanTimeoutAt s D c = (([], some .timeout), s₁, { c with late := c.late.tail, clock := D }) := by
      unfold scanTimeoutAt
      cases hs : scanAt s c.clock c.here c.coming with
      | none => exact ⟨s, by simp [waitTimeout, hm]⟩
      | some x =>
        obtain ⟨t, tok, s', here, coming⟩ := x
        have hD := h1 _ _ hs
        have ht : ¬ t ≤ D := by
          intro hle
          have : t = D := by omega
          rcases (scanAt_time hs).2 with h5 | ⟨y, hy, h5⟩
          · have := h.inTime; omega
          · exact h.noTie y hy (by omega)
        exact ⟨s', by simp [ht, waitTimeout, hm]⟩
    obtain ⟨s₁, hT⟩ := hT
    have hU : ∃ r, scan s u.rd = .blocked r := by
      rw [h.rd]
      cases hs : scan s (c.here ++ before D c.coming) with
      | done tok s' rest => exact absurd hs (h2 _ _ _)
      | blocked r => exact ⟨r, rfl⟩
      | diverged => exact absurd hs (scan_ne_diverged _ _ hi)
    obtain ⟨r, hU⟩ := hU
    refine ⟨s₁, s, _, { u with rd := r, late := u.late.tail }, hT, ?_, rfl, rfl, rfl⟩
    unfold scanTimeout
    rw [hU]
    simp [waitTimeout]

/-- Reading the packet: the same result; it ends at the latest at `D`. -/
theorem readPacketAt_aligned {D : Nat} {c : TimedConn} {u : Conn} (h : Aligned D c u) (e : Bool) :
    (readPacketAt c D e).1 = (readPacket u e).1 ∧
    (readPacketAt c D e).2.sent = (readPacket u e).2.sent ∧
    ((readPacketAt c D e).1 = .ret {} (some .timeout) ∧ (readPacketAt c D e).2.clock = D ∨
      Aligned D (readPacketAt c D e).2 (readPacket u e).2) := by
  unfold readPacketAt readPacket
  rcases scanTimeoutAt_aligned h scanInv_init with ⟨t1, s1, c1, u1, e1, f1, a1, i1⟩ |
    ⟨s1, r1, c1, u1, e1, f1, k1, m1, n1⟩
  rotate_left
  · rw [e1, f1]
    exact ⟨rfl, by simp [m1, n1, h.sent], .inl ⟨rfl, k1⟩⟩
  rw [e1, f1]
  simp only
  by_cases l1 : t1.length ≠ 0
  · simp only [if_pos l1]
    exact ⟨trivial, a1.sent.symm, .inr a1⟩
  simp only [if_neg l1]
  cases e with
  | false => exact ⟨rfl, a1.sent.symm, .inr a1⟩
  | true =>
    simp only [Bool.not_true, Bool.false_eq_true, if_false]
    rcases scanTimeoutAt_aligned a1 i1 with ⟨t2, s2, c2, u2, e2, f2, a2, i2⟩ |
      ⟨s2, r2, c2, u2, e2, f2, k2, m2, n2⟩
    rotate_left
    · rw [e2, f2]
      exact ⟨rfl, by simp [m2, n2, a1.sent], .inl ⟨rfl, k2⟩⟩
    rw [e2, f2]
    simp only
    by_cases l2 : t2.length ≠ 0
    · simp only [if_pos l2]
      exact ⟨trivial, a2.sent.symm, .inr a2⟩
    simp only [if_neg l2]
    rcases scanTimeoutAt_aligned a2 i2 with ⟨t3, s3, c3, u3, e3, f3, a3, i3⟩ |
      ⟨s3, r3, c3, u3, e3, f3, k3, m3, n3⟩
    rotate_left
    · rw [e3, f3]
      exact ⟨rfl, by simp [m3, n3, a2.sent], .inl ⟨rfl, k3⟩⟩
    rw [e3, f3]
    simp only
    split
    · exact ⟨rfl, a3.sent.symm, .inr a3⟩
    · split
      · exact ⟨rfl, a3.sent.symm, .inr a3⟩
      · exact ⟨rfl, a3.sent.symm, .inr a3⟩

/-- What reading does to the connection up to the timer. -/
structure Waits (timer : Nat) (c c' : TimedConn) : Prop where
  wr : c'.wr = c.wr
  takes : c'.takes = c.takes
  sent : c'.sent = c.sent
  coming : c'.coming ⊆ c.coming
  start : c.clock ≤ c'.clock
  stop : c'.clock ≤ timer
  moment : c'.clock = c.clock ∨ c'.clock = timer ∨ ∃ y ∈ c.coming, c'.clock = y.1

theorem Waits.refl {timer : Nat} {c : TimedConn} (h : c.clock ≤ timer) : Waits timer c c :=
  ⟨rfl, rfl, rfl, List.Subset.refl _, Nat.le_refl _, h, .inl rfl⟩

theorem Waits.trans {timer : Nat} {a b c : TimedConn} (h : Waits timer a b) (k : Waits timer b c) :
    Waits timer a c where
  wr := k.wr.trans h.wr
  takes := k.takes.trans h.takes
  sent := k.sent.trans h.sent
  coming := List.Subset.trans k.coming h.coming
  start := Nat.le_trans h.start k.start
  stop := k.stop
  moment := by
    rcases k.moment with m | m | ⟨y, hy, m⟩
    · rcases h.moment with n | n | ⟨y, hy, n⟩
      · exact .inl (m.trans n)
      · exact .inr (.inl (m.trans n))
      · exact .inr (.inr ⟨y, hy, m.trans n⟩)
    · exact .inr (.inl m)
    · exact .inr (.inr ⟨y, h.coming hy, m⟩)

theorem scanAt_subset {s : Scanner} {now : Nat} {here : List RdEv} {coming : List (Nat × RdEv)}
    {t : Nat} {tok s' here' coming'}
    (h : scanAt s now here coming = some (t, tok, s', here', coming')) : coming' ⊆ coming := by
  induction coming generalizing now here with
  | nil =>
    simp only [scanAt] at h
    split at h
    · cases h; exact List.Subset.refl _
    · cases h
  | cons y coming ih =>
    simp only [scanAt] at h
    split at h
    · cases h; exact List.Subset.refl _
    · exact List.Subset.trans (ih h) (List.subset_cons_self _ _)

theorem scanTimeoutAt_waits {s : Scanner} {timer : Nat} {c : TimedConn} (h : c.clock ≤ timer) :
    ∃ tok e s' c', scanTimeoutAt s timer c = ((tok, e), s', c') ∧ Waits timer c c' ∧
      (e = none ∨ e = some .timeout ∧ c'.clock = timer) := by
  have hm : max c.clock timer = timer := Nat.max_eq_right h
  have late : ∀ l, Waits timer c { c with late := l, clock := timer } := fun _ =>
    ⟨rfl, rfl, rfl, List.Subset.refl _, h, Nat.le_refl _, .inr (.inl rfl)⟩
  unfold scanTimeoutAt
  simp only [hm]
  cases hs : scanAt s c.clock c.here c.coming with
  | none => exact ⟨_, _, _, _, rfl, late _, .inr ⟨rfl, rfl⟩⟩
  | some x =>
    obtain ⟨t, tok, s', here, coming⟩ := x
    obtain ⟨h1, h2⟩ := scanAt_time hs
    by_cases ht : t ≤ timer
    · simp only [if_pos ht]
      cases hb : (decide (t = timer) && c.late.headD false) with
      | true => exact ⟨_, _, _, _, rfl, late _, .inr ⟨rfl, rfl⟩⟩
      | false =>
        refine ⟨_, _, _, _, rfl, ⟨rfl, rfl, rfl, scanAt_subset hs, h1, ht, ?_⟩, .inl rfl⟩
        rcases h2 with h2 | h2
        · exact .inl h2
        · exact .inr (.inr h2)
    · simp only [if_neg ht]
      exact ⟨_, _, _, _, rfl, late _, .inr ⟨rfl, rfl⟩⟩

/-- Reading the packet ends at the latest when the timer fires, and reports a timeout only then. -/
theorem readPacketAt_waits {timer : Nat} {c : TimedConn} {e : Bool} (h : c.clock ≤ timer) :
    Waits timer c (readPacketAt c timer e).2 ∧
    ((readPacketAt c timer e).2.clock = timer ∨
      ∀ q, (readPacketAt c timer e).1 ≠ .ret q (some .timeout)) := by
  unfold readPacketAt
  obtain ⟨t1, e1, s1, c1, h1, w1, k1⟩ := scanTimeoutAt_waits (s := {}) h
  rw [h1]
  rcases k1 with rfl | ⟨rfl, k1⟩
  rotate_left
  · exact ⟨w1, .inl k1⟩
  simp only
  split
  · exact ⟨w1, .inr (by simp)⟩
  split
  · exact ⟨w1, .inr (by simp)⟩
  obtain ⟨t2, e2, s2, c2, h2, w2, k2⟩ := scanTimeoutAt_waits (s := s1) w1.stop
  rw [h2]
  rcases k2 with rfl | ⟨rfl, k2⟩
  rotate_left
  · exact ⟨w1.trans w2, .inl k2⟩
  simp only
  split
  · exact ⟨w1.trans w2, .inr (by simp)⟩
  obtain ⟨t3, e3, s3, c3, h3, w3, k3⟩ := scanTimeoutAt_waits (s := s2) w2.stop
  rw [h3]
  have w := (w1.trans w2).trans w3
  rcases k3 with rfl | ⟨rfl, k3⟩
  rotate_left
  · exact ⟨w, .inl k3⟩
  simp only
  split
  · exact ⟨w, .inr (by simp)⟩
  split
  · exact ⟨w, .inr fun q => Props.unmarshal_ne_timeout t3 q⟩
  · exact ⟨w, .inr (by simp)⟩

theorem TimedConn.write_eq (c : TimedConn) (bs : List UInt8) :
    ∃ r w s, c.write bs = (r, { c with wr := w, sent := s, clock := c.clock + c.takes.headD 0, takes := c.takes.tail }) ∧
      (∀ u : Conn, u.wr = c.wr → u.sent = c.sent → u.write bs = (r, { u with wr := w, sent := s })) ∧
      r.2 ≠ some .timeout := by
  unfold TimedConn.write
  cases hw : c.wr with
  | nil => exact ⟨_, _, _, rfl, fun u h k => by cases u; subst h; subst k; rfl, by simp⟩
  | cons e w => cases e <;> exact ⟨_, _, _, rfl, fun u h k => by simp [Conn.write, h, k], by simp⟩

end Comfo
