import Verif.Spec.Leak
import Verif.Lemmas.RefRead
import Verif.Lemmas.Frame
import Verif.Lemmas.Query
/-! Helper lemmas for the shared connection: without leaked readers, a query computes the
reference reader of the bytes it has read. -/
namespace Comfo.Leak
open Spec

/-- Reference for the last `n` scans of `ReadPacket`. -/
def refFrom (e : Bool) : Nat → List UInt8 → Bool → Go Packet
  | 0, _, _ => .panic
  | n + 1, w, b =>
    match refStep w b false with
    | none => .ret {} (some .timeout)
    | some (t, w', b') =>
      match afterScan e (n + 1) (some t) with
      | some r => r
      | none => refFrom e n w' b'

theorem refFrom_three (e : Bool) (w : List UInt8) (b : Bool) :
    refFrom e 3 w b = refRead w b [] e := by
  have len (t : List UInt8) : t.length ≠ 0 ↔ t ≠ [] := by simp
  unfold refFrom refRead
  simp only [List.headD_nil, List.tail_nil]
  cases refStep w b false with
  | none => rfl
  | some x =>
    obtain ⟨t, w1, b1⟩ := x
    simp only [afterScan, Option.getD_some, if_true, len]
    by_cases ht : t = []
    · subst ht
      cases e with
      | false => simp
      | true =>
        simp only [ne_eq, not_true_eq_false, if_false, Bool.not_true, Bool.false_eq_true]
        unfold refFrom
        cases refStep w1 b1 false with
        | none => rfl
        | some x =>
          obtain ⟨t, w2, b2⟩ := x
          simp only [afterScan, Option.getD_some, len]
          by_cases ht : t = []
          · subst ht
            simp only [ne_eq, not_true_eq_false, if_false, if_true, Nat.reduceEqDiff]
            unfold refFrom
            cases refStep w2 b2 false with
            | none => rfl
            | some x =>
              obtain ⟨t, w3, b3⟩ := x
              simp only [afterScan, Option.getD_some]
              by_cases ht : t = []
              · subst ht; simp
              · have hp : 0 < t.length := by
                  rcases t with _ | ⟨a, t⟩
                  · exact absurd rfl ht
                  · simp
                by_cases h4 : t.length < 4
                · simp only [Nat.reduceEqDiff, if_false, hp, h4, and_self, if_true, ht,
                    Nat.zero_add, gt_iff_lt]
                · have h5 : 4 ≤ t.length := by omega
                  simp only [Nat.reduceEqDiff, if_false, hp, h4, and_false, ht, h5, if_true,
                    Nat.zero_add, gt_iff_lt, ge_iff_le]
          · simp [ht]
    · simp [ht]

/-- Only data is left of a script of data. -/
theorem readLoop_rest (room loop : Nat) (rd rest : List RdEv) (bs : List UInt8) (er : Bool)
    (hd : ∀ ev ∈ rd, ∃ bs, ev = RdEv.data bs) (h : readLoop room loop rd = .got bs er rest) :
    (∀ ev ∈ rest, ∃ bs, ev = RdEv.data bs) ∧ rdSize rest ≤ rdSize rd := by
  induction rd generalizing loop with
  | nil =>
    unfold readLoop at h
    split at h <;> simp at h
    obtain ⟨-, -, rfl⟩ := h
    simp
  | cons ev r ih =>
    obtain ⟨cs, rfl⟩ := hd _ (List.mem_cons_self ..)
    have hd' : ∀ ev ∈ r, ∃ bs, ev = RdEv.data bs := fun ev h => hd ev (List.mem_cons_of_mem _ h)
    unfold readLoop at h
    split at h
    · simp at h
      obtain ⟨-, -, rfl⟩ := h
      exact ⟨hd, Nat.le_refl _⟩
    · simp only at h
      split at h
      · split at h
        · simp at h
          obtain ⟨-, -, rfl⟩ := h
          exact ⟨hd', by simp [rdSize]⟩
        · obtain ⟨h1, h2⟩ := ih _ hd' h
          exact ⟨h1, by simp [rdSize]; omega⟩
      · split at h
        · simp at h
          obtain ⟨-, -, rfl⟩ := h
          exact ⟨hd', by simp [rdSize]⟩
        · simp at h
          obtain ⟨-, -, rfl⟩ := h
          refine ⟨?_, by simp [rdSize]⟩
          intro ev hev
          rcases List.mem_cons.1 hev with rfl | hev
          · exact ⟨_, rfl⟩
          · exact hd' _ hev

theorem scanLoop_rest (n : Nat) (s s' : Scanner) (rd rest : List RdEv) (tok : Option (List UInt8))
    (hd : ∀ ev ∈ rd, ∃ bs, ev = RdEv.data bs) (h : scanLoop n s rd = .done tok s' rest) :
    (∀ ev ∈ rest, ∃ bs, ev = RdEv.data bs) ∧ rdSize rest ≤ rdSize rd := by
  induction n generalizing s rd with
  | zero => simp [scanLoop] at h
  | succ n ih =>
    unfold scanLoop at h
    split at h
    · simp at h
      obtain ⟨-, -, rfl⟩ := h
      exact ⟨hd, Nat.le_refl _⟩
    · split at h
      · simp at h
        obtain ⟨-, -, rfl⟩ := h
        exact ⟨hd, Nat.le_refl _⟩
      · split at h
        · simp at h
          obtain ⟨-, -, rfl⟩ := h
          exact ⟨hd, Nat.le_refl _⟩
        · split at h
          · simp at h
          · next hr =>
            obtain ⟨h1, h2⟩ := readLoop_rest _ _ _ _ _ _ hd hr
            obtain ⟨h3, h4⟩ := ih _ _ h1 h
            exact ⟨h3, by omega⟩

theorem scan_rest {s s' : Scanner} {rd rest : List RdEv} {tok : Option (List UInt8)}
    (hd : ∀ ev ∈ rd, ∃ bs, ev = RdEv.data bs) (h : scan s rd = .done tok s' rest) :
    (∀ ev ∈ rest, ∃ bs, ev = RdEv.data bs) ∧ rdSize rest ≤ rdSize rd :=
  scanLoop_rest _ _ _ _ _ _ hd h

theorem delivered_data (cs : List (List UInt8)) : delivered (cs.map .data) = cs.flatten := by
  induction cs with
  | nil => rfl
  | cons c cs ih => simp [delivered, ih]

theorem breaks_data (cs : List (List UInt8)) : breaks (cs.map .data) = false := by
  induction cs with
  | nil => rfl
  | cons c cs ih => simpa [breaks] using ih

theorem chunksOf_data {rd : List RdEv} (hd : ∀ ev ∈ rd, ∃ bs, ev = RdEv.data bs) :
    (chunksOf rd).map .data = rd := by
  induction rd with
  | nil => rfl
  | cons ev r ih =>
    obtain ⟨bs, rfl⟩ := hd _ (List.mem_cons_self ..)
    have := ih fun ev h => hd ev (List.mem_cons_of_mem _ h)
    simpa [chunksOf] using this

theorem noEmpty_data {cs : List (List UInt8)} (h : ∀ c ∈ cs, c ≠ []) :
    NoEmptyReads (cs.map .data) := by
  intro bs hb
  simp at hb
  exact h _ hb

/-- A dead scanner never blocks. -/
theorem advance_dead (e : Bool) (n : Nat) (s : Scanner) (he : s.err = true)
    (hn : NoDelim s.win) : advance e n s = .inr (refFrom e n [] true) := by
  induction n generalizing s with
  | zero => rfl
  | succ n ih =>
    unfold advance refFrom
    rw [scan_dead _ he hn, refStep_nil]
    have : afterScan e (n + 1) none = afterScan e (n + 1) (some []) := rfl
    simp only [this]
    cases afterScan e (n + 1) (some []) with
    | some r => rfl
    | none => exact ih _ he noDelim_nil

/-- Going on without reading: agrees with the reference for whatever will be read later. -/
theorem advance_ref (e : Bool) (n : Nat) (s : Scanner) (hi : ScanInv s) (he : s.err = false) :
    match advance e n s with
    | .inr r => ∀ P, refFrom e n (s.win ++ P) false = r
    | .inl (m, s') => ScanInv s' ∧ s'.err = false ∧ 1 ≤ m ∧ m ≤ n ∧ NoDelim s'.win ∧
        s'.win.length ≤ s.win.length ∧
        ∀ P, refFrom e n (s.win ++ P) false = refFrom e m (s'.win ++ P) false := by
  induction n generalizing s with
  | zero => intro P; rfl
  | succ n ih =>
    unfold advance
    have h := scan_spec s [] hi
    have hav : avail s [] = s.win := by simp [avail, delivered]
    have hen : ends s [] = false := by simp [ends, he, breaks]
    have hne : NoEmptyReads [] := by intro bs hb; simp at hb
    generalize hs : scan s [] = res at h
    match res, h with
    | .blocked _, h =>
      simp only [ScanPost, hav] at h
      exact ⟨hi, he, by omega, by omega, h.1, Nat.le_refl _, fun P => rfl⟩
    | .done none s' _, h =>
      simp only [ScanPost, hav, hen] at h
      obtain ⟨h1, h2, h3, h4⟩ := h
      have hlong : NoDelim (s.win.take 65536) ∧ 65536 ≤ s.win.length := by
        rcases h4 hne with h | h
        · simp at h
        · exact h
      have hstep : ∀ P, refStep (s.win ++ P) false false = some ([], [], true) := by
        intro P
        refine refStep_eof (.inr ⟨?_, ?_⟩)
        · rw [List.take_append_of_le_length hlong.2]; exact hlong.1
        · simp; omega
      have hnone : afterScan e (n + 1) none = afterScan e (n + 1) (some []) := rfl
      simp only [hnone]
      cases ha : afterScan e (n + 1) (some []) with
      | some r => intro P; unfold refFrom; rw [hstep]; simp [ha]
      | none =>
        simp only [advance_dead e n s' h1 h3]
        intro P; unfold refFrom; rw [hstep]; simp only [ha]
        cases n <;> rfl
    | .done (some tok) s' rd', h =>
      simp only [ScanPost, hav, hen] at h
      obtain ⟨h1, h2, d, lost, h3, h4⟩ := h
      obtain ⟨rfl, h5, h6⟩ := h4 hne
      rw [List.append_nil] at h3
      have hrest := scan_rest (by simp) hs
      have hnil : rd' = [] := by
        cases rd' with
        | nil => rfl
        | cons ev r =>
          obtain ⟨bs, rfl⟩ := hrest.1 _ (List.mem_cons_self ..)
          have := hrest.2
          simp [rdSize] at this
      subst hnil
      have hav' : avail s' [] = s'.win := by simp [avail, delivered]
      have herr : s'.err = false := by
        simp [ends, breaks] at h5; exact h5
      rw [hav'] at h3
      have hstep : ∀ P, refStep (s.win ++ P) false false = some (tok, s'.win ++ P, false) :=
        fun P => refStep_tok _ (token_append h3 P) h2
      dsimp only
      cases ha : afterScan e (n + 1) (some tok) with
      | some r => intro P; unfold refFrom; rw [hstep]; simp [ha]
      | none =>
        have := ih s' h1 herr
        simp only
        cases hadv : advance e n s' with
        | inr r =>
          rw [hadv] at this
          intro P; conv => lhs; unfold refFrom
          rw [hstep]; simpa [ha] using this P
        | inl x =>
          obtain ⟨m, s''⟩ := x
          rw [hadv] at this
          obtain ⟨g1, g2, g3, g4, g5, g6, g7⟩ := this
          have hl := congrArg List.length h3.1
          simp only [List.length_append, List.length_cons] at hl
          refine ⟨g1, g2, g3, by omega, g5, by omega, fun P => ?_⟩
          conv => lhs; unfold refFrom
          rw [hstep]; simpa [ha] using g7 P

/-- A delimiter not contained in `X` ends in the chunk after it. -/
theorem token_in_chunk {X c tok S R : List UInt8} {d : UInt8} (hX : NoDelim X) (hd : IsDelim d)
    (h : X ++ c = tok ++ 7 :: d :: (S ++ R)) :
    ∃ c1, c = c1 ++ R ∧ X ++ c1 = tok ++ 7 :: d :: S := by
  have h' : X ++ c = (tok ++ 7 :: d :: S) ++ R := by simpa using h
  rcases List.append_eq_append_iff.1 h' with ⟨a, h1, h2⟩ | ⟨b, h1, h2⟩
  · exact ⟨a, h2, h1.symm⟩
  · exact absurd hd (hX tok d (S ++ b) (by rw [h1]; simp))

/-- A query in progress and nobody else reading; `consumed` is what it has read. -/
def Running (p : Packet) (consumed : List UInt8) (st : Port) : Prop :=
  ∃ w n, st.queue = [w] ∧ w.mine = some n ∧ 1 ≤ n ∧ n ≤ 3 ∧ st.active = some p ∧
    ScanInv w.scanner ∧ w.scanner.err = false ∧ (∀ c ∈ w.got, c ≠ []) ∧
    NoDelim (w.scanner.win ++ w.got.flatten) ∧
    (w.scanner.win ++ w.got.flatten).length ≤ consumed.length ∧
    ∀ P, refFrom p.expect n (w.scanner.win ++ w.got.flatten ++ P) false =
      refFrom p.expect 3 (consumed ++ P) false

/-- The query has returned what the reference says about the bytes consumed, whatever follows. -/
def Returned (p : Packet) (consumed : List UInt8) (base : List (Packet × Go Packet))
    (st : Port) : Prop :=
  ∃ r, st.queue = [] ∧ st.active = none ∧ st.results = base ++ [(p, queryResult p r)] ∧
    ∀ P, refFrom p.expect 3 (consumed ++ P) false = r

/-- During a round that started with no other reader around. -/
def InRound (p : Packet) (base : List (Packet × Go Packet)) (k : Nat) (arr : List (List UInt8))
    (st : Port) : Prop :=
  st.stuck = k ∧ (∀ c ∈ st.pending, c ≠ []) ∧
  ∃ consumed, arr.flatten = consumed ++ st.pending.flatten ∧
    ((Running p consumed st ∧ st.results = base) ∨ Returned p consumed base st)

theorem inRound_start (p : Packet) (st : Port) (h : Idle st) :
    InRound p st.results st.stuck [] (st.step (.start p)) := by
  obtain ⟨h1, h2, h3⟩ := h
  simp only [Port.step, h3]
  refine ⟨rfl, by simp [h2], [], by simp [h2], .inl ⟨⟨{ mine := some 3 }, 3, ?_⟩, rfl⟩⟩
  refine ⟨by simp [h1], rfl, by omega, by omega, rfl, scanInv_init, rfl, by simp, ?_, by simp, ?_⟩
  · exact noDelim_nil
  · intro P; rfl

theorem inRound_arrive {p : Packet} {base : List (Packet × Go Packet)} {k : Nat}
    {arr : List (List UInt8)} {st : Port} (bs : List UInt8) (hbs : bs ≠ [])
    (h : InRound p base k arr st) : InRound p base k (arr ++ [bs]) (st.step (.arrive bs)) := by
  obtain ⟨h1, h2, cons, h3, h4⟩ := h
  refine ⟨h1, ?_, cons, by simp [Port.step, h3], h4⟩
  intro c hc
  simp only [Port.step, List.mem_append, List.mem_singleton] at hc
  rcases hc with hc | rfl
  · exact h2 _ hc
  · exact hbs

theorem inRound_deliver {p : Packet} {base : List (Packet × Go Packet)} {k : Nat}
    {arr : List (List UInt8)} {st : Port} (hsize : arr.flatten.length < 65536)
    (h : InRound p base k arr st) : InRound p base k arr (st.step .deliver) := by
  obtain ⟨h1, h2, cons, h3, h4⟩ := h
  rcases h4 with ⟨⟨w, n, hq, hm, hn1, hn3, hact, hi, he, hg, hnd, hlen, href⟩, hres⟩ | hret
  · cases hp : st.pending with
    | nil =>
      have : st.step .deliver = st := by simp [Port.step, hq, hp]
      rw [this]
      exact ⟨h1, h2, cons, h3, .inl ⟨⟨w, n, hq, hm, hn1, hn3, hact, hi, he, hg, hnd, hlen, href⟩, hres⟩⟩
    | cons c cs =>
      have hc : c ≠ [] := h2 _ (by simp [hp])
      have hcs : ∀ x ∈ cs, x ≠ [] := fun x hx => h2 _ (by simp [hp, hx])
      have hdata : ∀ ev ∈ (w.got ++ [c]).map RdEv.data, ∃ bs, ev = RdEv.data bs := by
        intro ev hev
        simp only [List.mem_map] at hev
        obtain ⟨a, -, rfl⟩ := hev
        exact ⟨_, rfl⟩
      have hgc : ∀ x ∈ w.got ++ [c], x ≠ [] := by
        intro x hx
        simp only [List.mem_append, List.mem_singleton] at hx
        rcases hx with hx | rfl
        · exact hg _ hx
        · exact hc
      have hne : NoEmptyReads ((w.got ++ [c]).map .data) := noEmpty_data hgc
      have hav : avail w.scanner ((w.got ++ [c]).map .data) =
          w.scanner.win ++ w.got.flatten ++ c := by
        simp only [avail, he, delivered_data]; simp
      have hen : ends w.scanner ((w.got ++ [c]).map .data) = false := by
        simp only [ends, he, breaks_data]; rfl
      rw [hp] at h3
      have h3' : arr.flatten = (cons ++ c) ++ cs.flatten := by
        rw [h3, List.flatten_cons, List.append_assoc]
      have hsmall : (w.scanner.win ++ w.got.flatten ++ c).length < 65536 := by
        rw [h3'] at hsize
        simp only [List.length_append] at hsize hlen ⊢
        omega
      have hsp := scan_spec w.scanner ((w.got ++ [c]).map .data) hi
      simp only [Port.step, hq, hp, hm, hact]
      generalize hs : scan w.scanner ((w.got ++ [c]).map .data) = res at hsp
      match res, hsp with
      | .blocked _, hsp =>
        simp only [ScanPost, hav] at hsp
        refine ⟨h1, hcs, cons ++ c, h3', .inl ⟨⟨{ w with got := w.got ++ [c] }, n, by simp [hm], hm,
          hn1, hn3, rfl, hi, he, hgc, ?_, ?_, ?_⟩, hres⟩⟩
        · simpa using hsp.1
        · simp only [List.length_append, List.flatten_append, List.flatten_cons,
            List.flatten_nil, List.length_nil] at hlen ⊢
          omega
        · intro P
          have := href (c ++ P)
          simpa using this
      | .done none s' rest, hsp =>
        simp only [ScanPost, hav, hen] at hsp
        obtain ⟨g1, g2, g3, g4⟩ := hsp
        rcases g4 hne with g | g
        · simp at g
        · omega
      | .done (some tok) s' rest, hsp =>
        simp only [ScanPost, hav, hen] at hsp
        obtain ⟨g1, g2, d, lost, g3, g4⟩ := hsp
        obtain ⟨rfl, g5, g6⟩ := g4 hne
        rw [List.append_nil] at g3
        have gerr : s'.err = false := by
          simp only [ends, Bool.or_eq_false_iff] at g5; exact g5.1
        have hrest := (scan_rest hdata hs).1
        have hrest' := chunksOf_data hrest
        have gav : avail s' rest = s'.win ++ (chunksOf rest).flatten := by
          simp only [avail, gerr]
          rw [← delivered_data, hrest']; simp
        rw [gav] at g3
        generalize hR : (chunksOf rest).flatten = R at g3
        have hpend : ∀ x ∈ chunksOf rest ++ cs, x ≠ [] := by
          intro x hx
          rcases List.mem_append.1 hx with hx | hx
          · refine g6 x ?_
            rw [← hrest']; exact List.mem_map_of_mem hx
          · exact hcs x hx
        -- the delimiter ends in the new chunk, so what is left over is a part of it
        obtain ⟨c1, hc1, hW0⟩ := token_in_chunk hnd g3.2.1 g3.1
        have htok0 : Token (w.scanner.win ++ w.got.flatten ++ c1) tok d s'.win :=
          ⟨hW0, g3.2.1, g3.2.2⟩
        have hstep : ∀ P, refStep (w.scanner.win ++ w.got.flatten ++ c1 ++ P) false false =
            some (tok, s'.win ++ P, false) :=
          fun P => refStep_tok _ (token_append htok0 P) g2
        have h3'' : arr.flatten = (cons ++ c1) ++ (chunksOf rest ++ cs).flatten := by
          rw [h3', hc1, ← hR]; simp
        have href' : ∀ P, refFrom p.expect n (w.scanner.win ++ w.got.flatten ++ c1 ++ P) false =
            refFrom p.expect 3 (cons ++ c1 ++ P) false := by
          intro P
          have := href (c1 ++ P)
          simpa using this
        obtain ⟨m, rfl⟩ : ∃ m, n = m + 1 := ⟨n - 1, by omega⟩
        dsimp only
        cases ha : afterScan p.expect (m + 1) (some tok) with
        | some r =>
          refine ⟨h1, hpend, cons ++ c1, h3'', .inr ⟨r, rfl, rfl, by simp [Port.finish, hres], ?_⟩⟩
          intro P
          rw [← href']
          unfold refFrom
          rw [hstep]; simp [ha]
        | none =>
          have hadv := advance_ref p.expect m s' g1 gerr
          simp only [Nat.add_sub_cancel]
          cases hx : advance p.expect m s' with
          | inr r =>
            rw [hx] at hadv
            refine ⟨h1, hpend, cons ++ c1, h3'', .inr ⟨r, rfl, rfl, by simp [Port.finish, hres], ?_⟩⟩
            intro P
            rw [← href']
            conv => lhs; unfold refFrom
            rw [hstep]; simpa [ha] using hadv P
          | inl x =>
            obtain ⟨n', s''⟩ := x
            rw [hx] at hadv
            obtain ⟨k1, k2, k3, k4, k5, k6, k7⟩ := hadv
            refine ⟨h1, hpend, cons ++ c1, h3'', .inl ⟨⟨{ scanner := s'', mine := some n' }, n',
              by simp, rfl, k3, by omega, rfl, k1, k2, by simp, by simpa using k5, ?_, ?_⟩, hres⟩⟩
            · have hl := congrArg List.length hW0
              simp only [List.length_append, List.length_cons, List.flatten_nil,
                List.length_nil] at hl hlen ⊢
              omega
            · intro P
              rw [← href']
              conv => rhs; unfold refFrom
              rw [hstep]; simpa [ha] using (k7 P).symm
  · obtain ⟨r, hq, hr⟩ := hret
    have : st.step .deliver = st := by simp [Port.step, hq]
    rw [this]
    exact ⟨h1, h2, cons, h3, .inr ⟨r, hq, hr⟩⟩

end Comfo.Leak
