import Verif.Spec.Recover
import Verif.Props.Leak
import Verif.Props.Served
/-! Helper lemmas: outages of the unit. -/
namespace Comfo
open Spec Comfo.Leak Comfo.Props

/-! ## One query -/

theorem deliver_none {st : Port} (h : st.pending = []) : st.step .deliver = st := by
  simp only [Port.step, h]; split <;> simp_all

theorem delivers_none {st : Port} (h : st.pending = []) (n : Nat) :
    st.exec (List.replicate n .deliver) = st := by
  induction n with
  | zero => rfl
  | succ n ih =>
    rw [List.replicate_succ]
    change (st.step .deliver).exec _ = st
    rw [deliver_none h, ih]

/-- If the first read takes all, that is it. -/
theorem settle_once {st : Port} {c : List UInt8} (hp : st.pending = [c])
    (h : (st.step .deliver).pending = []) : st.settle = st.step .deliver := by
  unfold Port.settle
  rw [hp]
  change (st.exec (List.replicate (_ + 1) _)) = _
  rw [List.replicate_succ]
  change (st.step .deliver).exec _ = _
  exact delivers_none h _

/-- The connection between two queries: some readers left behind. -/
def Leaky (k : Nat) (st : Port) : Prop :=
  st.queue = List.replicate k { mine := none } ∧ st.pending = [] ∧ st.active = none

theorem leaky_idle {st : Port} : Leaky 0 st ↔ Idle st := Iff.rfl

theorem goodReply_some {p : Packet} {c : List UInt8} {v : Packet} (h : GoodReply p c v) :
    ¬ NoDelim c ∧ c.length ≤ 4096 := by
  unfold GoodReply at h
  split at h
  · obtain ⟨h1, -, -, rfl, -⟩ := h
    have := length_body_le (cmd := v.command) h1
    refine ⟨?_, by simp [ack, frame]; omega⟩
    exact fun hn => hn [] 0xF3 (frame v.command v.data) rfl (by decide)
  · rw [h.1]; decide

/-- What a reader does that takes all. -/
theorem deliver_takes {st : Port} {w : Waiter} {q : List Waiter} {c : List UInt8} {tok : Option (List UInt8)}
    {s' : Scanner} (hq : st.queue = w :: q) (hp : st.pending = [c])
    (hs : scan w.scanner ((w.got ++ [c]).map .data) = .done tok s' []) :
    (st.step .deliver).pending = [] := by
  simp only [Port.step, hq, hp, hs]
  split
  · split
    · rfl
    · split <;> rfl
  · rfl

theorem query_silent {k : Nat} {st : Port} (h : Leaky k st) (p : Packet) :
    Leaky (k + 1) (st.query p []) ∧
    (st.query p []).results = st.results ++ [(p, .ret {} (some .timeout))] := by
  obtain ⟨h1, h2, h3⟩ := h
  simp only [Port.query, List.foldl_nil, Port.step, h3, Option.isSome_some, if_true]
  refine ⟨⟨?_, h2, rfl⟩, trivial⟩
  simp [h1, List.replicate_succ']

theorem query_stale {k : Nat} {st : Port} (h : Leaky (k + 1) st) (p : Packet) {c : List UInt8}
    (hd : ¬ NoDelim c) (hl : c.length ≤ 4096) :
    Leaky (k + 1) (st.query p [c]) ∧
    (st.query p [c]).results = st.results ++ [(p, .ret {} (some .timeout))] := by
  obtain ⟨h1, h2, h3⟩ := h
  have e : ((st.step (.start p)).step (.arrive c)).settle =
      { st with
        active := some p
        stuck := st.stuck + 1
        queue := List.replicate k { mine := none } ++ [{ mine := some 3 }] } := by
    have hs := deliver_swallowed (st := (st.step (.start p)).step (.arrive c))
      (q := List.replicate k { mine := none } ++ [{ mine := some 3 }]) (c := c) (cs := [])
      (by simp [Port.step, h3, h1, List.replicate_succ]) (by simp [Port.step, h3, h2]) hd hl
    rw [settle_once (c := c) (by simp [Port.step, h3, h2]) (by rw [hs]), hs]
    simp [Port.step, h3, h2]
  simp only [Port.query, List.foldl_cons, List.foldl_nil, e, Option.isSome_some, if_true]
  simp only [Port.step]
  refine ⟨⟨?_, h2, rfl⟩, trivial⟩
  simp [List.replicate_succ']

theorem query_answered {st : Port} (h : Leaky 0 st) (p : Packet) {c : List UInt8} {v : Packet}
    (hg : GoodReply p c v) :
    Leaky 0 (st.query p [c]) ∧ (st.query p [c]).results = st.results ++ [(p, .ret v none)] := by
  obtain ⟨hd, hl⟩ := goodReply_some hg
  have hst := leaky_idle.1 h
  obtain ⟨h1, h2, h3⟩ := h
  obtain ⟨tok, s', hs⟩ := scan_fresh hd hl
  have hpend : (((st.step (.start p)).step (.arrive c)).step .deliver).pending = [] :=
    deliver_takes (w := { mine := some 3 }) (q := []) (c := c) (by simp [Port.step, h3, h1])
      (by simp [Port.step, h3, h2]) hs
  have hset := settle_once (st := (st.step (.start p)).step (.arrive c)) (c := c)
    (by simp [Port.step, h3, h2]) hpend
  have hc : c ≠ [] := by rintro rfl; exact hd noDelim_nil
  obtain ⟨h4, h5⟩ := good_round p st hst [.arrive c, .deliver]
    (by
      intro e he
      simp only [List.mem_cons, List.not_mem_nil, or_false] at he
      rcases he with rfl | rfl
      · exact .inr ⟨c, hc, rfl⟩
      · exact .inl rfl)
    v (by simpa [arrivals] using hg) (.inr hpend)
  have e : st.exec [.start p, .arrive c, .deliver] =
      ((st.step (.start p)).step (.arrive c)).step .deliver := rfl
  rw [e] at h4 h5
  have e' : st.query p [c] = ((st.step (.start p)).step (.arrive c)).step .deliver := by
    unfold Port.query
    simp only [List.foldl_cons, List.foldl_nil, hset, h4.2.2, Option.isSome_none, Bool.false_eq_true,
      if_false]
  rw [e']
  exact ⟨h4, h5⟩

/-- A query alone on the connection, when all that has arrived has been read. -/
theorem alone_round (p : Packet) (st : Port) (hst : Idle st) (es : List Ev) (he : OnlyReads es)
    (hsize : (arrivals es).flatten.length < 65536)
    (hq : (st.exec (.start p :: es)).pending = [])
    (hr : refFrom p.expect 3 (arrivals es).flatten false ≠ .ret {} (some .timeout)) :
    Idle (st.exec (.start p :: es)) ∧ (st.exec (.start p :: es)).results =
      st.results ++ [(p, queryResult p (refFrom p.expect 3 (arrivals es).flatten false))] := by
  have h := inRound_exec es he [] _ (by simpa using hsize) (inRound_start p st hst)
  simp only [List.nil_append] at h
  have hex : st.exec (.start p :: es) = (st.step (.start p)).exec es := rfl
  rw [hex] at hq ⊢
  obtain ⟨h1, h2, cons, h3, h4⟩ := h
  generalize (st.step (.start p)).exec es = st' at *
  rw [hq] at h3
  simp only [List.flatten_nil, List.append_nil] at h3
  rcases h4 with ⟨⟨w, n, hqu, hm, hn1, hn3, hact, hi, her, hg, hnd, hlen, href⟩, hres⟩ | ⟨r, hqu, hact, hres, href⟩
  · exfalso
    have := href []
    simp only [List.append_nil] at this
    obtain ⟨m, rfl⟩ : ∃ m, n = m + 1 := ⟨n - 1, by omega⟩
    rw [h3, ← this] at hr
    unfold refFrom at hr
    rw [refStep_silent hnd (by rw [h3] at hsize; omega)] at hr
    simp at hr
  · refine ⟨⟨hqu, hq, hact⟩, ?_⟩
    rw [hres, h3]
    have := href []
    rw [List.append_nil] at this
    rw [this]

theorem frame_some (cmd : UInt8) (data : List UInt8) (h : data.length ≤ 255) :
    ¬ NoDelim (frame cmd data) ∧ (frame cmd data).length ≤ 4000 := by
  have := length_body_le (cmd := cmd) h
  exact ⟨fun hn => hn [] 0xF0 (body cmd data ++ [7, 0x0F]) rfl (by decide), by simp [frame]; omega⟩

/-- A frame without the acknowledgement before it. -/
theorem refFrom_frame {cmd : UInt8} {data : List UInt8} (h : data.length ≤ 255)
    (hn : NoDelim (body cmd data)) :
    refFrom true 3 (frame cmd data) false = .ret {} (some .scanInput) := by
  have hb := length_body_le (cmd := cmd) h
  have e : frame cmd data = 7 :: 0xF0 :: (body cmd data ++ 7 :: 0x0F :: []) := by simp [frame]
  have hne : (body cmd data).length ≠ 0 := by simp [body]
  rw [e]
  unfold refFrom
  rw [refStep_empty _ _ (by decide)]
  simp only [afterScan, Option.getD_some, List.length_nil, ne_eq, not_true_eq_false, if_false, if_true,
    Bool.not_true, Bool.false_eq_true]
  unfold refFrom
  rw [refStep_tok false (t := body cmd data) ⟨rfl, by decide, hn⟩ (by omega)]
  simp [afterScan, hne]

/-- A reader whose buffer is empty again. -/
theorem scan_next {c : List UInt8} (hd : ¬ NoDelim c) (hl : c.length ≤ 4000) :
    ∃ tok s', scan { start := 2, cap := 4096 } [.data c] = .done (some tok) s' [] := by
  have hc : c ≠ [] := by rintro rfl; exact hd noDelim_nil
  cases hsp : splitFunc c with
  | none => exact absurd (splitFunc_none hsp) hd
  | some x =>
    obtain ⟨adv, tok⟩ := x
    have hn : rdSize [.data c] + 2 = (c.length + 1) + 1 + 1 := by simp [rdSize]
    unfold scan
    rw [hn]
    unfold scanLoop
    have hm : makeRoom { start := 2, cap := 4096 } = some { start := 2, cap := 4096 } := by decide
    simp only [splitFunc, splitFrom, Bool.false_eq_true, if_false, hm]
    have hr : readLoop (4096 - (2 + 0)) 0 [.data c] = .got c false [] := by
      have : c.length ≤ 4096 - (2 + 0) := by omega
      simp [readLoop, hc, this]
    simp only [List.length_nil, hr, List.nil_append]
    unfold scanLoop
    have : splitFrom 0 [] c = some (adv, tok) := hsp
    simp only [splitFunc, this]
    exact ⟨_, _, rfl⟩

theorem split_reply {p : Packet} {v : Packet} (hp : p.expect = true)
    (h : GoodReply p (ack ++ frame v.command v.data) v) :
    v.data.length ≤ 255 ∧ NoDelim (body v.command v.data) := by
  unfold GoodReply at h
  rw [if_pos hp] at h
  exact ⟨h.1, (noDelim_body _ _).2 h.2.2.2.2⟩

/-- The acknowledgement of a query nobody disturbs. -/
theorem deliver_ack {st : Port} (h : Idle st) (p : Packet) (hp : p.expect = true) :
    ((st.step (.start p)).step (.arrive ack)).step .deliver =
      { st with
        active := some p
        queue := [{ scanner := { start := 2, cap := 4096 }, mine := some 2 }] } := by
  obtain ⟨h1, h2, h3⟩ := h
  have hs : scan {} [.data ack] = .done (some []) { start := 2, cap := 4096 } [] := by decide
  have ha : advance true 2 { start := 2, cap := 4096 } = .inl (2, { start := 2, cap := 4096 }) := by
    decide
  simp only [Port.step, h1, h2, h3, List.nil_append, List.map_cons, List.map_nil, hs, hp]
  simp [afterScan, ha, chunksOf]

theorem query_halves {st : Port} (h : Leaky 0 st) (p : Packet) {v : Packet} (hp : p.expect = true)
    (hg : GoodReply p (ack ++ frame v.command v.data) v) :
    Leaky 0 (st.query p [ack, frame v.command v.data]) ∧
    (st.query p [ack, frame v.command v.data]).results = st.results ++ [(p, .ret v none)] := by
  have hst := leaky_idle.1 h
  obtain ⟨hv, hb⟩ := split_reply hp hg
  obtain ⟨hd, hl⟩ := frame_some v.command v.data hv
  have h1 := deliver_ack hst p hp
  obtain ⟨hq, hpn, hact⟩ := h
  have h2 : ((st.step (.start p)).step (.arrive ack)).settle =
      ((st.step (.start p)).step (.arrive ack)).step .deliver :=
    settle_once (c := ack) (by simp [Port.step, hact, hpn]) (by rw [h1]; exact hpn)
  generalize hf : frame v.command v.data = f at *
  obtain ⟨tok, s', hs⟩ := scan_next hd hl
  have h3 : ((((st.step (.start p)).step (.arrive ack)).step .deliver).step (.arrive f)).pending = [f] := by
    rw [h1]; simp [Port.step, hpn]
  have h4 : (((((st.step (.start p)).step (.arrive ack)).step .deliver).step
      (.arrive f)).step .deliver).pending = [] := by
    refine deliver_takes (w := { scanner := { start := 2, cap := 4096 }, mine := some 2 }) (q := [])
      (tok := some tok) (s' := s') ?_ h3 hs
    rw [h1]; rfl
  have h5 := settle_once h3 h4
  have hfn : f ≠ [] := by rintro rfl; exact hd noDelim_nil
  obtain ⟨h6, h7⟩ := good_round p st hst [.arrive ack, .deliver, .arrive f, .deliver]
    (by
      intro e he
      simp only [List.mem_cons, List.not_mem_nil, or_false] at he
      rcases he with rfl | rfl | rfl | rfl
      · exact .inr ⟨ack, by decide, rfl⟩
      · exact .inl rfl
      · exact .inr ⟨f, hfn, rfl⟩
      · exact .inl rfl)
    v (by simpa [arrivals] using hg) (.inr h4)
  have e : st.exec [.start p, .arrive ack, .deliver, .arrive f, .deliver] =
      ((((st.step (.start p)).step (.arrive ack)).step .deliver).step (.arrive f)).step .deliver := rfl
  rw [e] at h6 h7
  have e' : st.query p [ack, f] =
      ((((st.step (.start p)).step (.arrive ack)).step .deliver).step (.arrive f)).step .deliver := by
    unfold Port.query
    simp only [List.foldl_cons, List.foldl_nil, h2, h5, h6.2.2, Option.isSome_none,
      Bool.false_eq_true, if_false]
  rw [e']
  exact ⟨h6, h7⟩

/-- One reader left behind takes the acknowledgement, and the query fails at the frame. -/
theorem query_halves_one {st : Port} (h : Leaky 1 st) (p : Packet) {v : Packet} (hp : p.expect = true)
    (hg : GoodReply p (ack ++ frame v.command v.data) v) :
    Leaky 0 (st.query p [ack, frame v.command v.data]) ∧
    (st.query p [ack, frame v.command v.data]).results =
      st.results ++ [(p, .ret {} (some .scanInput))] := by
  obtain ⟨hv, hb⟩ := split_reply hp hg
  obtain ⟨hd, hl⟩ := frame_some v.command v.data hv
  have href := refFrom_frame hv hb
  obtain ⟨hq, hpn, hact⟩ := h
  generalize hf : frame v.command v.data = f at *
  have hfn : f ≠ [] := by rintro rfl; exact hd noDelim_nil
  have h1 := deliver_swallowed (st := (st.step (.start p)).step (.arrive ack))
    (q := [{ mine := some 3 }]) (c := ack) (cs := [])
    (by simp [Port.step, hact, hq]) (by simp [Port.step, hact, hpn]) (by decide) (by decide)
  have h2 : ((st.step (.start p)).step (.arrive ack)).settle =
      { st with queue := [], stuck := st.stuck + 1 : Port }.step (.start p) := by
    rw [settle_once (c := ack) (by simp [Port.step, hact, hpn]) (by rw [h1]), h1]
    simp [Port.step, hact, hpn]
  obtain ⟨st', hst'⟩ : ∃ st', st' = { st with queue := [], stuck := st.stuck + 1 : Port } := ⟨_, rfl⟩
  rw [← hst'] at h2
  have hid : Idle st' := by rw [hst']; exact ⟨rfl, hpn, hact⟩
  have hres : st'.results = st.results := by rw [hst']
  obtain ⟨tok, s', hs⟩ := scan_fresh hd (by omega)
  have h3 : ((st'.step (.start p)).step (.arrive f)).pending = [f] := by
    simp [Port.step, hid.2.1, hid.2.2]
  have h4 : (((st'.step (.start p)).step (.arrive f)).step .deliver).pending = [] :=
    deliver_takes (w := { mine := some 3 }) (q := []) (by simp [Port.step, hid.1, hid.2.2]) h3 hs
  have h5 := settle_once h3 h4
  have hsz : f.length < 65536 := by omega
  obtain ⟨h6, h7⟩ := alone_round p st' hid [.arrive f, .deliver]
    (by
      intro e he
      simp only [List.mem_cons, List.not_mem_nil, or_false] at he
      rcases he with rfl | rfl
      · exact .inr ⟨f, hfn, rfl⟩
      · exact .inl rfl)
    (by simpa [arrivals] using hsz) h4 (by simp [arrivals, hp, href])
  have e : st'.exec [.start p, .arrive f, .deliver] =
      ((st'.step (.start p)).step (.arrive f)).step .deliver := rfl
  rw [e] at h6 h7
  have e' : st.query p [ack, f] = ((st'.step (.start p)).step (.arrive f)).step .deliver := by
    unfold Port.query
    simp only [List.foldl_cons, List.foldl_nil, h2, h5, h6.2.2, Option.isSome_none,
      Bool.false_eq_true, if_false]
  rw [e']
  refine ⟨h6, ?_⟩
  rw [h7, hres]
  simp [arrivals, hp, href, queryResult]

/-- Two readers left behind take the two pieces. -/
theorem query_halves_more {k : Nat} {st : Port} (h : Leaky (k + 2) st) (p : Packet) {a b : List UInt8}
    (ha : ¬ NoDelim a ∧ a.length ≤ 4096) (hb : ¬ NoDelim b ∧ b.length ≤ 4096) :
    Leaky (k + 1) (st.query p [a, b]) ∧
    (st.query p [a, b]).results = st.results ++ [(p, .ret {} (some .timeout))] := by
  obtain ⟨h1, h2, h3⟩ := h
  have e : ((st.step (.start p)).step (.arrive a)).settle =
      { st with
        active := some p
        stuck := st.stuck + 1
        queue := List.replicate (k + 1) { mine := none } ++ [{ mine := some 3 }] } := by
    have hs := deliver_swallowed (st := (st.step (.start p)).step (.arrive a))
      (q := List.replicate (k + 1) { mine := none } ++ [{ mine := some 3 }]) (c := a) (cs := [])
      (by simp [Port.step, h3, h1, List.replicate_succ]) (by simp [Port.step, h3, h2]) ha.1 ha.2
    rw [settle_once (c := a) (by simp [Port.step, h3, h2]) (by rw [hs]), hs]
    simp [Port.step, h3, h2]
  obtain ⟨st', hst'⟩ : ∃ st', st' = ((st.step (.start p)).step (.arrive a)).settle := ⟨_, rfl⟩
  rw [← hst'] at e
  have e2 : (st'.step (.arrive b)).settle =
      { st with
        active := some p
        stuck := st.stuck + 2
        queue := List.replicate k { mine := none } ++ [{ mine := some 3 }] } := by
    have hs := deliver_swallowed (st := st'.step (.arrive b))
      (q := List.replicate k { mine := none } ++ [{ mine := some 3 }]) (c := b) (cs := [])
      (by simp [Port.step, e, List.replicate_succ]) (by simp [Port.step, e, h2]) hb.1 hb.2
    rw [settle_once (c := b) (by simp [Port.step, e, h2]) (by rw [hs]), hs, e]
    simp [Port.step, h2]
  simp only [Port.query, List.foldl_cons, List.foldl_nil, ← hst', e2, Option.isSome_some, if_true]
  simp only [Port.step]
  refine ⟨⟨?_, h2, rfl⟩, trivial⟩
  simp [List.replicate_succ']

/-! ## One read of the line -/

theorem read_results {U : Responder υ} {s : Shore υ} {e : Bool} {base : List (Packet × Go Packet)}
    {p : Packet} {r : Go Packet}
    (h : (s.port.query (queried s.last e) (U.hear s.last e s.unit).1).results = base ++ [(p, r)]) :
    ((portLine U).read e s).1 = r := by
  simp [portLine, h]

/-- The unit answers in one piece or not at all. -/
theorem read_whole {U : Responder υ} (hU : Whole U) {k : Nat} {s : Shore υ} (h : Leaky k s.port)
    (e : Bool) :
    (∃ v, k = 0 ∧ Leaky 0 ((portLine U).read e s).2.port ∧ ((portLine U).read e s).1 = .ret v none) ∨
    (((portLine U).read e s).1 = .ret {} (some .timeout) ∧ (U.hear s.last e s.unit).1 = [] ∧
      Leaky (k + 1) ((portLine U).read e s).2.port) ∨
    (((portLine U).read e s).1 = .ret {} (some .timeout) ∧ 0 < k ∧
      Leaky k ((portLine U).read e s).2.port) := by
  have hport : ((portLine U).read e s).2.port =
      s.port.query (queried s.last e) (U.hear s.last e s.unit).1 := rfl
  rw [hport]
  rcases hU s.last e s.unit with h0 | ⟨c, v, h0, hg⟩
  · obtain ⟨h1, h2⟩ := query_silent h (queried s.last e)
    rw [← h0] at h2
    rw [h0]
    exact .inr (.inl ⟨read_results h2, rfl, h1⟩)
  · cases k with
    | zero =>
      obtain ⟨h1, h2⟩ := query_answered h (queried s.last e) hg
      rw [← h0] at h1 h2
      exact .inl ⟨v, rfl, h1, read_results h2⟩
    | succ k =>
      obtain ⟨hd, hl⟩ := goodReply_some hg
      obtain ⟨h1, h2⟩ := query_stale h (queried s.last e) hd hl
      rw [← h0] at h1 h2
      exact .inr (.inr ⟨read_results h2, by omega, h1⟩)

/-- The unit answers queries in two pieces or not at all. -/
theorem read_halves {U : Responder υ} {k : Nat} {s : Shore υ} (h : Leaky k s.port) (e : Bool)
    {v : Packet} (hv : Halves e v (U.hear s.last e s.unit).1)
    (hg : GoodReply (queried s.last e) (U.hear s.last e s.unit).1.flatten v) :
    (k = 0 → ((portLine U).read e s).1 = .ret v none) ∧
    Leaky (if e then k - 1 else k) ((portLine U).read e s).2.port ∧
    (0 < k → ((portLine U).read e s).1 = .ret {} (some .timeout) ∨
      (e = true ∧ k = 1 ∧ ((portLine U).read e s).1 = .ret {} (some .scanInput))) := by
  have hport : ((portLine U).read e s).2.port =
      s.port.query (queried s.last e) (U.hear s.last e s.unit).1 := rfl
  rw [hport]
  unfold Halves at hv
  rw [hv] at hg
  cases e with
  | false =>
    simp only [Bool.false_eq_true, if_false, List.flatten_cons, List.flatten_nil, List.append_nil] at hv hg ⊢
    cases k with
    | zero =>
      obtain ⟨h1, h2⟩ := query_answered h (queried s.last false) hg
      rw [← hv] at h1 h2
      exact ⟨fun _ => read_results h2, h1, fun h => absurd h (by decide)⟩
    | succ k =>
      obtain ⟨h1, h2⟩ := query_stale h (queried s.last false) (c := ack) (by decide) (by decide)
      rw [← hv] at h1 h2
      exact ⟨fun h => absurd h (by omega), h1, fun _ => .inl (read_results h2)⟩
  | true =>
    simp only [if_true, List.flatten_cons, List.flatten_nil, List.append_nil] at hv hg ⊢
    match k, h with
    | 0, h =>
      obtain ⟨h1, h2⟩ := query_halves h (queried s.last true) rfl hg
      rw [← hv] at h1 h2
      exact ⟨fun _ => read_results h2, h1, fun h => absurd h (by decide)⟩
    | 1, h =>
      obtain ⟨h1, h2⟩ := query_halves_one h (queried s.last true) rfl hg
      rw [← hv] at h1 h2
      exact ⟨fun h => absurd h (by omega), h1, fun _ => .inr ⟨trivial, rfl, read_results h2⟩⟩
    | k + 2, h =>
      obtain ⟨hd, hl⟩ := frame_some v.command v.data (split_reply (p := queried s.last true) rfl hg).1
      obtain ⟨h1, h2⟩ := query_halves_more h (queried s.last true) (a := ack)
        (b := frame v.command v.data) (by decide) ⟨hd, by omega⟩
      rw [← hv] at h1 h2
      exact ⟨fun h => absurd h (by omega), h1, fun _ => .inl (read_results h2)⟩

/-! ## All executions -/

/-- An invariant of the line and the trace. -/
theorem line_ind {S : Setup σ} {I : σ → List (Tid × Act) → Prop} {s₁ s₂ : Sys σ}
    (hw : ∀ l tr t bs r l', I l tr → S.line.write bs l = (r, l') → I l' (tr ++ [(t, .wrote bs r)]))
    (hr : ∀ l tr t e q err l', I l tr → S.line.read e l = (.ret q err, l') →
      I l' (tr ++ [(t, .got e (q, err))]))
    (ho : ∀ l tr x, (∀ bs r, x.2 ≠ .wrote bs r) → (∀ e r, x.2 ≠ .got e r) → I l tr → I l (tr ++ [x]))
    (he : ∀ l l' tr, I l tr → S.env l l' → I l' tr)
    (h : Reachable S s₁ s₂) (h0 : I s₁.sh.world.line s₁.sh.trace) :
    I s₂.sh.world.line s₂.sh.trace := by
  have act : ∀ {t a} {sh sh' : Shared σ}, Acts S.line t a sh sh' → I sh.world.line sh.trace →
      I sh'.world.line sh'.trace := by
    intro t a sh sh' ha hi
    cases ha with
    | wrote hh => exact hw _ _ _ _ _ _ hi hh
    | got hh => exact hr _ _ _ _ _ _ _ hi hh
    | store =>
      rename_i i e
      have : (sh.world.set i e).line = sh.world.line := by cases i <;> rfl
      simp only [this]
      exact ho _ _ _ (by simp) (by simp) hi
    | _ => exact ho _ _ _ (by simp) (by simp) hi
  induction h with
  | start => exact h0
  | step _ hs ih =>
    cases hs with
    | work hw' =>
      cases hw' with
      | client i c a p sh h1 h2 h3 => exact act h3 ih
      | worker a p sh h1 h2 => exact act h2 ih
      | flush i c t p h1 h2 h3 => exact ho _ _ _ (by simp) (by simp) ih
      | flushed i c b p q h1 h2 h3 =>
        have := ho _ _ (.client i, .recvFlushed b) (by simp) (by simp)
          (ho _ _ (.worker, .sendFlushed b) (by simp) (by simp) ih)
        rw [List.append_assoc] at this
        exact this
    | tick k hk => exact ih
    | arrive c hc => exact ih
    | environment line ns hh => exact he _ _ _ ih hh

/-- What a write does to the connection. -/
theorem write_port {U : Responder υ} {s s' : Shore υ} {bs : List UInt8} {r : Nat × Option Err}
    (h : (portLine U).write bs s = (r, s')) : s'.port = s.port ∧ s'.unit = s.unit := by
  simp only [portLine, Prod.mk.injEq] at h
  rw [← h.2]
  split <;> exact ⟨rfl, rfl⟩

/-- All reads after a timeout time out. -/
def DeafAfter (tr : List (Tid × Act)) : Prop :=
  ∀ (pre : List (Tid × Act)) t e (r : Packet × Option Err) post,
    tr = pre ++ (t, .got e r) :: post → 0 < timeouts pre → r = ({}, some .timeout)

theorem deafAfter_snoc {tr : List (Tid × Act)} {x : Tid × Act} (h : DeafAfter tr)
    (hx : ∀ e r, x.2 = .got e r → 0 < timeouts tr → r = ({}, some .timeout)) :
    DeafAfter (tr ++ [x]) := by
  intro pre t e r post he ht
  rcases split_snoc he with ⟨rfl, rfl, -⟩ | ⟨post', e'⟩
  · exact hx e r rfl ht
  · exact h pre t e r post' e' ht

theorem timeouts_snoc (tr : List (Tid × Act)) (x : Tid × Act) :
    timeouts (tr ++ [x]) = timeouts tr + timeouts [x] := by
  simp [timeouts, List.filter_append]

theorem timeouts_append (a b : List (Tid × Act)) : timeouts (a ++ b) = timeouts a + timeouts b := by
  simp [timeouts, List.filter_append]

theorem timeouts_other {x : Tid × Act} (h : ∀ e r, x.2 ≠ .got e r) : timeouts [x] = 0 := by
  obtain ⟨t, a⟩ := x
  cases a <;> simp_all [timeouts]

/-- The invariant for units that answer in one piece. -/
structure Deaf (l : Shore υ) (tr : List (Tid × Act)) : Prop where
  leaky : ∃ k, Leaky k l.port ∧ (0 < k ↔ 0 < timeouts tr)
  after : DeafAfter tr
  only : ∀ t e r, (t, .got e r) ∈ tr → r.2 = none ∨ r = ({}, some .timeout)

theorem deaf_reachable {U : Responder υ} {awake : υ → Prop} {S : Setup (Shore υ)}
    (hL : S.line = portLine U) (hU : Whole U) (hE : OnlyUnit awake S.env) {w : World (Shore υ)}
    (hw : w.line.port = {}) {s : Sys (Shore υ)} (h : Reachable S (Sys.initial w) s) :
    Deaf s.sh.world.line s.sh.trace := by
  refine line_ind (I := Deaf) ?_ ?_ ?_ ?_ h ?_
  · rintro l tr t bs r l' ⟨⟨k, h1, h2⟩, h3, h4⟩ hh
    rw [hL] at hh
    refine ⟨⟨k, by rw [(write_port hh).1]; exact h1, ?_⟩, deafAfter_snoc h3 (by simp), ?_⟩
    · rw [timeouts_snoc, timeouts_other (by simp)]; exact h2
    · intro u e r' hm
      rcases List.mem_append.1 hm with hm | hm
      · exact h4 _ _ _ hm
      · simp at hm
  · rintro l tr t e q err l' ⟨⟨k, h1, h2⟩, h3, h4⟩ hh
    rw [hL] at hh
    have hl' : l' = ((portLine U).read e l).2 := by rw [hh]
    have hr : ((portLine U).read e l).1 = .ret q err := by rw [hh]
    have mem : (err = none ∨ ((q, err) : Packet × Option Err) = ({}, some .timeout)) →
        ∀ u e' r', (u, Act.got e' r') ∈ tr ++ [(t, .got e (q, err))] →
          r'.2 = none ∨ r' = ({}, some .timeout) := by
      intro ho u e' r' hm
      rcases List.mem_append.1 hm with hm | hm
      · exact h4 _ _ _ hm
      · simp at hm
        obtain ⟨-, -, rfl⟩ := hm
        exact ho
    have late : ((q, err) : Packet × Option Err) = ({}, some .timeout) →
        ∀ k', 0 < k' → Leaky k' l'.port → Deaf l' (tr ++ [(t, .got e (q, err))]) := by
      intro ho k' hk' hl
      refine ⟨⟨k', hl, ?_⟩, deafAfter_snoc h3 ?_, mem (.inr ho)⟩
      · rw [timeouts_snoc]
        have : timeouts [(t, Act.got e (q, err))] = 1 := by simp [timeouts, ho]
        omega
      · intro e' r' he' _
        cases he'
        exact ho
    rcases read_whole hU h1 e with ⟨v, hk, hl, hv⟩ | ⟨hv, -, hl⟩ | ⟨hv, hk, hl⟩
    · rw [hr] at hv
      cases hv
      subst hk
      have h0 : timeouts tr = 0 := by omega
      refine ⟨⟨0, by rw [hl']; exact hl, ?_⟩, deafAfter_snoc h3 ?_, mem (.inl rfl)⟩
      · rw [timeouts_snoc, h0]
        simp [timeouts]
      · intro e' r' _ hp
        omega
    · rw [hr] at hv
      cases hv
      exact late rfl (k + 1) (by omega) (by rw [hl']; exact hl)
    · rw [hr] at hv
      cases hv
      exact late rfl _ hk (by rw [hl']; exact hl)
  · rintro l tr x hx1 hx2 ⟨⟨k, h1, h2⟩, h3, h4⟩
    refine ⟨⟨k, h1, ?_⟩, deafAfter_snoc h3 fun e r h => absurd h (hx2 e r), ?_⟩
    · rw [timeouts_snoc, timeouts_other hx2]; exact h2
    · intro u e r hm
      rcases List.mem_append.1 hm with hm | hm
      · exact h4 _ _ _ hm
      · simp at hm
        subst hm
        exact absurd rfl (hx2 _ _)
  · rintro l l' tr ⟨⟨k, h1, h2⟩, h3, h4⟩ hh
    exact ⟨⟨k, by rw [(hE _ _ hh).1]; exact h1, h2⟩, h3, h4⟩
  · refine ⟨⟨0, ?_, by simp [Sys.initial, timeouts]⟩, by intro pre t e r post he; simp [Sys.initial] at he, by simp [Sys.initial]⟩
    show Leaky 0 w.line.port
    rw [hw]
    exact ⟨rfl, rfl, rfl⟩

/-! ## Caches nobody refreshes -/

/-- As long as all reads fail, no refresh succeeds. -/
theorem scan_failing {id : CacheId} {mid : List (Tid × Act)}
    (h : ∀ t e r, (t, .got e r) ∈ mid → r.2 ≠ none) (s : Option (CVal id × Int) × (Tid → Cur))
    (hs : ∀ u pl t, s.2 u ≠ .replied pl t) : (mid.foldl (scanAct id) s).1 = s.1 := by
  induction mid generalizing s with
  | nil => rfl
  | cons x mid ih =>
    have step : (scanAct id s x).1 = s.1 ∧ ∀ u pl t, (scanAct id s x).2 u ≠ .replied pl t := by
      obtain ⟨t, a⟩ := x
      have hx := h t
      unfold scanAct
      match he : evOf a with
      | none => simpa only [he] using ⟨trivial, hs⟩
      | some ev =>
        have hgot : ∀ e r, ev = .got e r → r.2 ≠ none := by
          rintro e r rfl
          cases a <;> simp [evOf] at he
          obtain ⟨rfl, rfl⟩ := he
          exact h t _ _ (List.mem_cons_self ..)
        simp only
        have : (scanEv id (s.1, s.2 t) ev).1 = s.1 ∧
            ∀ pl ts, (scanEv id (s.1, s.2 t) ev).2 ≠ .replied pl ts := by
          have hst := hs t
          generalize s.2 t = c at hst
          rcases ev with ⟨bs, n, _ | e⟩ | ⟨_ | _, q, _ | e⟩ | ⟨i, ts⟩ | b
          all_goals first
            | exact absurd rfl (hgot _ _ rfl)
            | (cases c <;> first
                | exact absurd rfl (hst _ _)
                | (refine ⟨rfl, fun pl ts => ?_⟩
                   simp only [scanEv]
                   try split
                   all_goals simp))
        refine ⟨this.1, fun u pl ts => ?_⟩
        split
        · exact this.2 pl ts
        · exact hs u pl ts
    rw [List.foldl_cons, ih (fun t e r hm => h t e r (List.mem_cons_of_mem _ hm)) _ step.2, step.1]

/-! ## Units that answer in two pieces -/

/-- There are at most as many readers left behind as there were timeouts. -/
theorem halves_reachable {U : Responder υ} {awake : υ → Prop} {S : Setup (Shore υ)}
    (hL : S.line = portLine U) (hU : InHalves U) (hE : OnlyUnit awake S.env) {w : World (Shore υ)}
    (hw : w.line.port = {}) {s : Sys (Shore υ)} (h : Reachable S (Sys.initial w) s) :
    ∃ k, Leaky k s.sh.world.line.port ∧ k ≤ timeouts s.sh.trace := by
  refine line_ind (I := fun l tr => ∃ k, Leaky k l.port ∧ k ≤ timeouts tr) ?_ ?_ ?_ ?_ h ?_
  · rintro l tr t bs r l' ⟨k, h1, h2⟩ hh
    rw [hL] at hh
    exact ⟨k, by rw [(write_port hh).1]; exact h1, by rw [timeouts_append]; omega⟩
  · rintro l tr t e q err l' ⟨k, h1, h2⟩ hh
    rw [hL] at hh
    have hl' : l' = ((portLine U).read e l).2 := by rw [hh]
    have hr : ((portLine U).read e l).1 = .ret q err := by rw [hh]
    rw [hl', timeouts_append]
    rcases hU l.last e l.unit with h0 | ⟨v, hv, hg⟩
    · obtain ⟨h3, h4⟩ := query_silent h1 (queried l.last e)
      rw [← h0] at h3 h4
      have := read_results h4
      rw [hr] at this
      cases this
      refine ⟨k + 1, h3, ?_⟩
      have : timeouts [(t, Act.got e (({} : Packet), some Err.timeout))] = 1 := by simp [timeouts]
      omega
    · have := (read_halves h1 e hv hg).2.1
      refine ⟨_, this, ?_⟩
      split <;> omega
  · rintro l tr x - - ⟨k, h1, h2⟩
    exact ⟨k, h1, by rw [timeouts_append]; omega⟩
  · rintro l l' tr ⟨k, h1, h2⟩ hh
    exact ⟨k, by rw [(hE _ _ hh).1]; exact h1, h2⟩
  · exact ⟨0, by show Leaky 0 w.line.port; rw [hw]; exact ⟨rfl, rfl, rfl⟩, by omega⟩

/-- What has happened since `k₀` readers were left behind and the unit woke up. -/
structure Healing (awake : υ → Prop) (k₀ : Nat) (l : Shore υ) (ext : List (Tid × Act)) : Prop where
  awake : awake l.unit
  leaky : ∃ k, Leaky k l.port ∧ k = k₀ - replyReads ext ∧ replyFailures ext + k ≤ k₀
  heard : ∀ (pre : List (Tid × Act)) t e (r : Packet × Option Err) post,
    ext = pre ++ (t, .got e r) :: post → (r.2 = none ↔ k₀ ≤ replyReads pre)

theorem counts_other {x : Tid × Act} (h : ∀ e r, x.2 ≠ .got e r) (ext : List (Tid × Act)) :
    replyReads (ext ++ [x]) = replyReads ext ∧ replyFailures (ext ++ [x]) = replyFailures ext := by
  obtain ⟨t, a⟩ := x
  cases a <;> simp_all [replyReads, replyFailures]

theorem healing_other {awake : υ → Prop} {k₀ : Nat} {l l' : Shore υ} {ext : List (Tid × Act)}
    (h : Healing awake k₀ l ext) {x : Tid × Act} (hx : ∀ e r, x.2 ≠ .got e r)
    (hp : l'.port = l.port) (hu : l'.unit = l.unit) : Healing awake k₀ l' (ext ++ [x]) := by
  obtain ⟨h1, ⟨k, h2, h3, h4⟩, h5⟩ := h
  obtain ⟨e1, e2⟩ := counts_other hx ext
  refine ⟨by rw [hu]; exact h1, ⟨k, by rw [hp]; exact h2, by rw [e1]; exact h3, by rw [e2]; exact h4⟩, ?_⟩
  intro pre t e r post he
  rcases split_snoc he with ⟨rfl, rfl, -⟩ | ⟨post', e'⟩
  · exact absurd rfl (hx e r)
  · exact h5 pre t e r post' e'

theorem healing_reachable {U : Responder υ} {awake : υ → Prop} {S : Setup (Shore υ)}
    (hL : S.line = portLine U) (hU : InHalves U) (hA : Wakeful U awake) (hE : OnlyUnit awake S.env)
    {s₁ s₂ : Sys (Shore υ)} {k₀ : Nat} (hk : Leaky k₀ s₁.sh.world.line.port)
    (ha : awake s₁.sh.world.line.unit) (h : Reachable S s₁ s₂) :
    ∃ ext, s₂.sh.trace = s₁.sh.trace ++ ext ∧ Healing awake k₀ s₂.sh.world.line ext := by
  refine line_ind (I := fun l tr => ∃ ext, tr = s₁.sh.trace ++ ext ∧ Healing awake k₀ l ext)
    ?_ ?_ ?_ ?_ h ?_
  · rintro l tr t bs r l' ⟨ext, rfl, hi⟩ hh
    rw [hL] at hh
    obtain ⟨h1, h2⟩ := write_port hh
    exact ⟨ext ++ [_], List.append_assoc .., healing_other hi (by simp) h1 h2⟩
  · rintro l tr t e q err l' ⟨ext, rfl, h1, ⟨k, h2, h3, h4⟩, h5⟩ hh
    rw [hL] at hh
    have hl' : l' = ((portLine U).read e l).2 := by rw [hh]
    have hr : ((portLine U).read e l).1 = .ret q err := by rw [hh]
    obtain ⟨hne, haw⟩ := hA l.last e l.unit h1
    rcases hU l.last e l.unit with h0 | ⟨v, hv, hg⟩
    · exact absurd h0 hne
    obtain ⟨r1, r2, r3⟩ := read_halves h2 e hv hg
    rw [hr] at r1 r3
    have hc : replyReads (ext ++ [(t, Act.got e (q, err))]) = replyReads ext + (if e then 1 else 0) := by
      cases e <;> simp [replyReads]
    have hf : replyFailures (ext ++ [(t, Act.got e (q, err))]) =
        replyFailures ext + (if e && err.isSome then 1 else 0) := by
      cases e <;> cases err <;> simp [replyFailures]
    refine ⟨ext ++ [_], List.append_assoc .., ?_, ⟨_, by rw [hl']; exact r2, ?_, ?_⟩, ?_⟩
    · rw [hl']; exact haw
    · rw [hc]; cases e <;> simp <;> omega
    · rw [hf]
      cases e with
      | false => simpa using h4
      | true =>
        by_cases hk0 : k = 0
        · cases r1 hk0
          simp; omega
        · have : (if (true && err.isSome) = true then 1 else 0) ≤ 1 := by split <;> omega
          simp only [if_true]
          omega
    · intro pre u e' r' post he
      rcases split_snoc he with ⟨rfl, hx, -⟩ | ⟨post', e'⟩
      · cases hx
        by_cases hk0 : k = 0
        · cases r1 hk0
          exact ⟨fun _ => by omega, fun _ => rfl⟩
        · refine ⟨fun h => ?_, fun h => by omega⟩
          rcases r3 (by omega) with hx | ⟨-, -, hx⟩
          all_goals cases hx; cases h
      · exact h5 pre u _ r' post' e'
  · rintro l tr x - hx ⟨ext, rfl, hi⟩
    exact ⟨ext ++ [_], List.append_assoc .., healing_other hi hx rfl rfl⟩
  · rintro l l' tr ⟨ext, rfl, h1, ⟨k, h2, h3⟩, h5⟩ hh
    obtain ⟨e1, -, e3⟩ := hE _ _ hh
    exact ⟨ext, rfl, e3 h1, ⟨k, by rw [e1]; exact h2, h3⟩, h5⟩
  · exact ⟨[], by simp, ha, ⟨k₀, hk, by simp [replyReads], by simp [replyFailures]⟩,
      by intro pre t e r post he; simp at he⟩

/-! ## Units that are never silent -/

theorem awake_reachable {U : Responder υ} {awake : υ → Prop} {S : Setup (Shore υ)}
    (hL : S.line = portLine U) (hU : ∀ bs e u, awake u → awake (U.hear bs e u).2 ∧
      ∃ v, GoodReply (queried bs e) (U.hear bs e u).1.flatten v ∧
        ((U.hear bs e u).1 = [(U.hear bs e u).1.flatten] ∨ Halves e v (U.hear bs e u).1))
    (hE : OnlyUnit awake S.env) {w : World (Shore υ)} (hw : w.line.port = {}) (ha : awake w.line.unit)
    {s : Sys (Shore υ)} (h : Reachable S (Sys.initial w) s) :
    ∀ t e r, (t, .got e r) ∈ s.sh.trace → r.2 = none ∧ ∃ bs u,
      GoodReply (queried bs e) (U.hear bs e u).1.flatten r.1 := by
  have := line_ind (I := fun l tr => Leaky 0 l.port ∧ awake l.unit ∧
    ∀ t e r, (t, Act.got e r) ∈ tr → r.2 = none ∧ ∃ bs u,
      GoodReply (queried bs e) (U.hear bs e u).1.flatten r.1) ?_ ?_ ?_ ?_ h ?_
  · exact this.2.2
  · rintro l tr t bs r l' ⟨h1, h2, h3⟩ hh
    rw [hL] at hh
    obtain ⟨e1, e2⟩ := write_port hh
    refine ⟨by rw [e1]; exact h1, by rw [e2]; exact h2, fun u e r' hm => ?_⟩
    rcases List.mem_append.1 hm with hm | hm
    · exact h3 _ _ _ hm
    · simp at hm
  · rintro l tr t e q err l' ⟨h1, h2, h3⟩ hh
    rw [hL] at hh
    have hl' : l' = ((portLine U).read e l).2 := by rw [hh]
    have hr : ((portLine U).read e l).1 = .ret q err := by rw [hh]
    obtain ⟨haw, v, hg, hv⟩ := hU l.last e l.unit h2
    have key : Leaky 0 ((portLine U).read e l).2.port ∧ ((portLine U).read e l).1 = .ret v none := by
      rcases hv with hv | hv
      · obtain ⟨h5, h6⟩ := query_answered h1 (queried l.last e) hg
        rw [← hv] at h5 h6
        exact ⟨h5, read_results h6⟩
      · obtain ⟨h5, h6, -⟩ := read_halves h1 e hv hg
        refine ⟨?_, h5 rfl⟩
        cases e <;> exact h6
    rw [hr] at key
    obtain ⟨k1, k2⟩ := key
    cases k2
    refine ⟨by rw [hl']; exact k1, by rw [hl']; exact haw, fun u e' r' hm => ?_⟩
    rcases List.mem_append.1 hm with hm | hm
    · exact h3 _ _ _ hm
    · simp at hm
      obtain ⟨-, rfl, rfl⟩ := hm
      exact ⟨rfl, _, _, hg⟩
  · rintro l tr x - hx ⟨h1, h2, h3⟩
    refine ⟨h1, h2, fun u e r' hm => ?_⟩
    rcases List.mem_append.1 hm with hm | hm
    · exact h3 _ _ _ hm
    · simp at hm
      subst hm
      exact absurd rfl (hx _ _)
  · rintro l l' tr ⟨h1, h2, h3⟩ hh
    obtain ⟨e1, -, e3⟩ := hE _ _ hh
    exact ⟨by rw [e1]; exact h1, e3 h2, h3⟩
  · exact ⟨by show Leaky 0 w.line.port; rw [hw]; exact ⟨rfl, rfl, rfl⟩, ha, by simp [Sys.initial]⟩

end Comfo
