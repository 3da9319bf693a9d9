import Verif.Lemmas.Leak
import Verif.Props.Reading
/-!
# Property C33 and C63: what a timeout leaves behind

The model is `Verif/Model/Leak.lean`, the vocabulary `Verif/Spec/Leak.lean`.
-/
namespace Comfo.Props
open Spec Comfo.Leak

/-! ## Without leaked readers -/

theorem inRound_exec {p : Packet} {base : List (Packet × Go Packet)} {k : Nat} (es : List Ev)
    (he : OnlyReads es) (arr : List (List UInt8)) (st : Port)
    (hsize : (arr ++ arrivals es).flatten.length < 65536) (h : InRound p base k arr st) :
    InRound p base k (arr ++ arrivals es) (st.exec es) := by
  induction es generalizing arr st with
  | nil => simpa [arrivals, Port.exec] using h
  | cons e es ih =>
    have he' : OnlyReads es := fun x hx => he x (List.mem_cons_of_mem _ hx)
    rcases he e (List.mem_cons_self ..) with rfl | ⟨bs, hbs, rfl⟩
    · refine ih he' arr (st.step .deliver) hsize (inRound_deliver ?_ h)
      simp only [arrivals, List.flatten_append, List.length_append] at hsize
      omega
    · have e : arr ++ arrivals (.arrive bs :: es) = (arr ++ [bs]) ++ arrivals es := by
        simp [arrivals]
      rw [e] at hsize ⊢
      exact ih he' _ _ hsize (inRound_arrive bs hbs h)

theorem arrivals_noEmpty {es : List Ev} (h : OnlyReads es) : ∀ c ∈ arrivals es, c ≠ [] := by
  induction es with
  | nil => simp [arrivals]
  | cons e es ih =>
    have ih := ih fun x hx => h x (List.mem_cons_of_mem _ hx)
    rcases h e (List.mem_cons_self ..) with rfl | ⟨bs, hbs, rfl⟩
    · exact ih
    · intro c hc
      rcases List.mem_cons.1 hc with rfl | hc
      · exact hbs
      · exact ih c hc

theorem queryPacket_result (p : Packet) (hp : p.data.length ≤ 255) (rd : List RdEv) :
    (queryPacket p { rd }).1 = queryResult p (readPacket { rd } p.expect).1 := by
  obtain ⟨n, -, -, -, h⟩ := queryPacket_phases p { rd } hp
  obtain ⟨q, e, c2, hr, -, hw, h1, h2, h3⟩ := h (by simp)
  have hi := readPacket_indep (Conn.wrote { rd } ((frame p.command p.data).take n)) { rd } p.expect
    rfl rfl
  rw [hr] at hi
  rw [← hi]
  cases e with
  | some err => rw [h1 err rfl]; rfl
  | none =>
    unfold queryResult
    by_cases hc : p.expect = true ∧ q.command ≠ p.command + 1
    · rw [h2 rfl hc.1 hc.2]; simp [hc.1, hc.2]
    · rw [h3 rfl (fun hx => Classical.byContradiction fun hn => hc ⟨hx, hn⟩)]
      simp only [if_neg hc]
      have : (writeAck c2).1.2 = none := by
        simp only [List.tail_nil] at hw
        simp [writeAck, Conn.write, hw]
      rw [this]

/-- A query that shares the connection with no reader left behind behaves exactly as the model
of a query on its own connection says: for everything that arrives (up to the scanner's limit),
however it is cut into pieces and whenever these are read, if its timer fires only when nothing
is left to be read. So all that is proved about `queryPacket` holds for the shared connection,
up to the first timeout. -/
theorem C33_alone_agrees (p : Packet) (hp : p.data.length ≤ 255) (st : Port) (hst : Idle st)
    (es : List Ev) (he : OnlyReads es) (hsize : (arrivals es).flatten.length < 65536)
    (hq : Quiet (st.exec (.start p :: es))) :
    (st.exec (.start p :: es ++ [.timeout])).results = st.results ++
      [(p, (queryPacket p { rd := (arrivals es).map .data }).1)] := by
  have h := inRound_exec es he [] _ (by simpa using hsize) (inRound_start p st hst)
  simp only [List.nil_append] at h
  have hex : st.exec (.start p :: es) = (st.step (.start p)).exec es := rfl
  have hex' : st.exec (.start p :: es ++ [.timeout]) = (st.exec (.start p :: es)).step .timeout := by
    simp [Port.exec, List.foldl_append]
  rw [hex', queryPacket_result p hp, readPacket_ref (noEmpty_data (arrivals_noEmpty he)),
    delivered_data, breaks_data, ← refFrom_three]
  rw [hex] at hq ⊢
  obtain ⟨h1, h2, cons, h3, h4⟩ := h
  generalize (st.step (.start p)).exec es = st' at *
  rcases h4 with ⟨⟨w, n, hqu, hm, hn1, hn3, hact, hi, her, hg, hnd, hlen, href⟩, hres⟩ | ⟨r, hqu, hact, hres, href⟩
  · have hpend : st'.pending = [] := by
      rcases hq with hq | hq
      · rw [hqu] at hq; simp at hq
      · exact hq
    rw [hpend] at h3
    simp only [List.flatten_nil, List.append_nil] at h3
    have := href []
    simp only [List.append_nil] at this
    obtain ⟨m, rfl⟩ : ∃ m, n = m + 1 := ⟨n - 1, by omega⟩
    rw [h3, ← this]
    unfold refFrom
    rw [refStep_silent hnd (by rw [h3] at hsize; omega)]
    simp [Port.step, hact, hres, queryResult]
  · simp only [Port.step, hact, hres]
    rw [h3, href]

/-! ## Rounds that end well -/

/-- What the reference reader makes of a good reply, and of a part of it. -/
theorem refFrom_good {p : Packet} {reply : List UInt8} {v : Packet} (h : GoodReply p reply v) :
    refFrom p.expect 3 reply false = .ret v none ∧
    ∀ x y, reply = x ++ y → y ≠ [] → refFrom p.expect 3 x false = .ret {} (some .timeout) := by
  unfold GoodReply at h
  cases hx : p.expect with
  | false =>
    simp only [hx, Bool.false_eq_true, if_false] at h
    obtain ⟨rfl, rfl⟩ := h
    refine ⟨by decide, ?_⟩
    intro x y hxy hy
    match x, hxy with
    | [], _ => decide
    | [a], hxy =>
      simp [ack] at hxy
      rw [← hxy.1]; decide
    | [a, b], hxy =>
      simp [ack] at hxy
      exact absurd hxy.2.2 hy
    | a :: b :: c :: x, hxy => simp [ack] at hxy
  | true =>
    simp only [hx, if_true] at h
    obtain ⟨h1, h2, h3, rfl, h5⟩ := h
    have hv : v = { command := v.command, data := v.data } := by
      cases v; simp at h3; simp [h3]
    constructor
    · have := (C09_receivable_partial v h1 { rd := [.data (ack ++ frame v.command v.data)] } []
        (by intro bs hb; simp at hb; subst hb; simp [ack]) (by simp)
        (by simp [delivered])).2 h5
      rw [readPacket_ref (by intro bs hb; simp at hb; subst hb; simp [ack])] at this
      rw [refFrom_three, hv, ← this]
      simp [delivered, breaks]
    · intro x y hxy hy
      have hbl := length_body_le (cmd := v.command) h1
      have hnb : NoDelim (body v.command v.data) := (noDelim_body _ _).2 h5
      have shape : ack ++ frame v.command v.data =
          7 :: 0xF3 :: 7 :: 0xF0 :: (body v.command v.data ++ 7 :: 0x0F :: []) := by
        simp [ack, frame]
      rw [shape] at hxy
      have hpre : x <+: 7 :: 0xF3 :: 7 :: 0xF0 :: (body v.command v.data ++ 7 :: 0x0F :: []) :=
        ⟨y, hxy.symm⟩
      have hlen := congrArg List.length hxy
      have hy' : 0 < y.length := by
        cases y with
        | nil => exact absurd rfl hy
        | cons _ _ => simp
      rw [refFrom_three]
      unfold refRead
      rcases refStep_prefix (b := false) (tok := []) false noDelim_nil (d := 0xF3) (by decide)
        (by simp) hpre (by simp) with hs | ⟨A1, hA1, hp1, hs⟩
      · simp [hs]
      simp only [List.headD_nil, List.tail_nil, hs, ne_eq, not_true_eq_false, if_false,
        Bool.not_true, Bool.false_eq_true]
      rcases refStep_prefix (b := false) (tok := []) false noDelim_nil (d := 0xF0) (by decide)
        (by simp) hp1 (by simp) with hs | ⟨A2, hA2, hp2, hs⟩
      · simp [hs]
      simp only [hs, not_true_eq_false, if_false]
      rcases refStep_prefix (b := false) false hnb (d := 0x0F) (by decide)
        (by omega) hp2 (by simp) with hs | ⟨A3, hA3, hp3, hs⟩
      · simp [hs]
      · exfalso
        rw [hA1, hA2, hA3] at hlen
        simp only [List.length_append, List.length_cons, List.length_nil] at hlen
        omega

theorem good_round (p : Packet) (st : Port) (hst : Idle st) (es : List Ev) (he : OnlyReads es)
    (v : Packet) (hg : GoodReply p (arrivals es).flatten v)
    (hq : Quiet (st.exec (.start p :: es))) :
    Idle (st.exec (.start p :: es)) ∧
    (st.exec (.start p :: es)).results = st.results ++ [(p, .ret v none)] := by
  have hsize : (arrivals es).flatten.length < 65536 := by
    unfold GoodReply at hg
    split at hg
    · have := length_body_le (cmd := v.command) hg.1
      rw [hg.2.2.2.1]
      simp [ack, frame]; omega
    · rw [hg.1]; simp [ack]
  obtain ⟨hr, hcut⟩ := refFrom_good hg
  have h := inRound_exec es he [] _ (by simpa using hsize) (inRound_start p st hst)
  simp only [List.nil_append] at h
  have hex : st.exec (.start p :: es) = (st.step (.start p)).exec es := rfl
  rw [hex] at hq ⊢
  obtain ⟨h1, h2, cons, h3, h4⟩ := h
  generalize (st.step (.start p)).exec es = st' at *
  rcases h4 with ⟨⟨w, n, hqu, hm, hn1, hn3, hact, hi, her, hgo, hnd, hlen, href⟩, hres⟩ | ⟨r, hqu, hact, hres, href⟩
  · exfalso
    have hpend : st'.pending = [] := by
      rcases hq with hq | hq
      · rw [hqu] at hq; simp at hq
      · exact hq
    rw [hpend] at h3
    simp only [List.flatten_nil, List.append_nil] at h3
    have := href []
    simp only [List.append_nil] at this
    obtain ⟨m, rfl⟩ : ∃ m, n = m + 1 := ⟨n - 1, by omega⟩
    rw [h3, ← this] at hr
    unfold refFrom at hr
    rw [refStep_silent hnd (by rw [h3] at hsize; omega)] at hr
    simp at hr
  · have hrv : r = .ret v none := by rw [← href st'.pending.flatten, ← h3, hr]
    have hpf : st'.pending.flatten = [] := by
      apply Classical.byContradiction
      intro hne
      have h5 := hcut _ _ h3 hne
      have h6 := href []
      rw [List.append_nil, h5, hrv] at h6
      simp at h6
    have hpend : st'.pending = [] := by
      cases hp : st'.pending with
      | nil => rfl
      | cons c cs =>
        rw [hp] at hpf
        simp at hpf
        exact absurd hpf.1 (h2 c (by simp [hp]))
    refine ⟨⟨hqu, hpend, hact⟩, ?_⟩
    rw [hres, hrv]
    have : queryResult p (.ret v none) = .ret v none := by
      unfold queryResult GoodReply at *
      split at hg
      · simp [hg.2.1]
      · next hx => simp [hx]
    rw [this]

/-- **C33**, the strongest true variant: as long as no query times out, every query whose answer
is good and arrives in time succeeds with what the answer says, and nothing is left behind. Any
number of queries, answers cut in pieces and read at any moments. *Missing from the full
property:* histories in which a query has timed out; for those it is false, see
`C33_violated` and `C33_poisoned`. -/
theorem C33_no_timeout_partial (st : Port) (hst : Idle st) (rs : List (Round × Packet))
    (h : ∀ x ∈ rs, OnlyReads x.1.es ∧ GoodReply x.1.p (arrivals x.1.es).flatten x.2)
    (hr : AllRead st (rs.map (·.1))) :
    (st.exec (eventsOf (rs.map (·.1)))).results =
      st.results ++ rs.map (fun x => (x.1.p, .ret x.2 none)) ∧
    Idle (st.exec (eventsOf (rs.map (·.1)))) := by
  induction rs generalizing st with
  | nil => simpa [eventsOf, Port.exec] using hst
  | cons x rs ih =>
    obtain ⟨h1, h2⟩ := h x (List.mem_cons_self ..)
    obtain ⟨h3, h4⟩ := hr
    obtain ⟨h5, h6⟩ := good_round x.1.p st hst x.1.es h1 x.2 h2 h3
    obtain ⟨h7, h8⟩ := ih _ h5 (fun y hy => h y (List.mem_cons_of_mem _ hy)) h4
    have e : st.exec (eventsOf ((x :: rs).map (·.1))) =
        (st.exec (.start x.1.p :: x.1.es)).exec (eventsOf (rs.map (·.1))) := by
      simp [eventsOf, Port.exec, List.foldl_append]
    rw [e]
    refine ⟨?_, h8⟩
    rw [h7, h6]
    simp

/-- A bypass query, its answer (ACK and frame) and what it says; a command and its ACK. -/
def bypassQuery : Packet := { command := 0xDF, expect := true }
def bypassAnswer : List UInt8 := ack ++ frame 0xE0 [0, 1, 2, 3, 4, 0, 0]
def bypassValue : Packet := { command := 0xE0, data := [0, 1, 2, 3, 4, 0, 0] }
def speedCommand : Packet := { command := 0x99, data := [3] }

/-- Non-vacuity of `C33_no_timeout_partial`: a query answered in three pieces, read with some
delay, and a command. -/
example :
    let rs : List (Round × Packet) :=
      [(⟨bypassQuery, [.arrive [7, 0xF3, 7], .deliver, .arrive (bypassAnswer.drop 3 |>.take 6),
          .arrive (bypassAnswer.drop 9), .deliver, .deliver]⟩, bypassValue),
       (⟨speedCommand, [.arrive ack, .deliver]⟩, {})]
    (∀ x ∈ rs, OnlyReads x.1.es ∧ GoodReply x.1.p (arrivals x.1.es).flatten x.2) ∧
    AllRead {} (rs.map (·.1)) ∧
    ((({} : Port).exec (eventsOf (rs.map (·.1)))).results =
      [(bypassQuery, .ret bypassValue none), (speedCommand, .ret {} none)]) := by
  refine ⟨?_, ⟨.inl (by decide), .inl (by decide), trivial⟩, by decide⟩
  intro x hx
  simp only [List.mem_cons, List.not_mem_nil, or_false] at hx
  rcases hx with rfl | rfl
  · refine ⟨?_, by decide⟩
    intro e he
    simp only [List.mem_cons, List.not_mem_nil, or_false] at he
    rcases he with rfl | rfl | rfl | rfl | rfl | rfl
    · exact .inr ⟨_, by decide, rfl⟩
    · exact .inl rfl
    · exact .inr ⟨_, by decide, rfl⟩
    · exact .inr ⟨_, by decide, rfl⟩
    · exact .inl rfl
    · exact .inl rfl
  · refine ⟨?_, by decide⟩
    intro e he
    simp only [List.mem_cons, List.not_mem_nil, or_false] at he
    rcases he with rfl | rfl
    · exact .inr ⟨_, by decide, rfl⟩
    · exact .inl rfl

/-- Non-vacuity of `C33_alone_agrees`: an answer with bytes before the ACK. -/
example :
    Idle {} ∧ Quiet (({} : Port).exec (.start bypassQuery :: [.arrive [1, 7, 0xF3], .deliver])) ∧
    (({} : Port).exec (.start bypassQuery :: [.arrive [1, 7, 0xF3], .deliver] ++ [.timeout])).results =
      [(bypassQuery, .ret {} (some .scanInput))] := by
  exact ⟨⟨rfl, rfl, rfl⟩, .inl (by decide), by decide⟩

/-! ## After a timeout -/

/-- **C33**, negation: after one query has timed out, a query whose answer is good, arrives at
once, in one piece, and is read at once, does not return it. -/
theorem C33_violated :
    ¬ ∀ (hist : List Ev) (p : Packet) (es : List Ev) (v : Packet),
      let st := ({} : Port).exec hist
      st.active = none → st.pending = [] → OnlyReads es →
      GoodReply p (arrivals es).flatten v → Quiet (st.exec (.start p :: es)) →
      (st.exec (.start p :: es)).results = st.results ++ [(p, .ret v none)] := by
  intro h
  have := h [.start speedCommand, .timeout] bypassQuery [.arrive bypassAnswer, .deliver] bypassValue
    (by decide) (by decide)
    (by
      intro e he
      simp only [List.mem_cons, List.not_mem_nil, or_false] at he
      rcases he with rfl | rfl
      · exact .inr ⟨_, by decide, rfl⟩
      · exact .inl rfl)
    (by decide) (.inr (by decide))
  revert this
  decide

/-- A reader that has nothing yet and gets a piece with a delimiter is done. -/
theorem scan_fresh {c : List UInt8} (hd : ¬ NoDelim c) (hl : c.length ≤ 4096) :
    ∃ tok s', scan {} [.data c] = .done (some tok) s' [] := by
  have hc : c ≠ [] := by rintro rfl; exact hd noDelim_nil
  cases hsp : splitFunc c with
  | none => exact absurd (splitFunc_none hsp) hd
  | some x =>
    obtain ⟨adv, tok⟩ := x
    refine ⟨tok, { win := c.drop adv, start := adv, cap := 4096 }, ?_⟩
    have hn : rdSize [.data c] + 2 = (c.length + 1) + 1 + 1 := by simp [rdSize]
    unfold scan
    rw [hn]
    unfold scanLoop
    simp only [splitFunc, splitFrom, Bool.false_eq_true, if_false, makeRoom, startBufSize,
      maxTokenSize]
    simp only [List.length_nil, Nat.lt_irrefl, gt_iff_lt, false_and, if_false, Nat.add_zero,
      if_true, ge_iff_le, Nat.zero_mul, Nat.reduceLeDiff, Nat.min_def, Nat.reduceSub]
    have hr : readLoop 4096 0 [.data c] = .got c false [] := by
      simp [readLoop, hc, hl]
    rw [hr]
    simp only [List.nil_append]
    unfold scanLoop
    have : splitFrom 0 [] c = some (adv, tok) := hsp
    simp only [splitFunc, this, Nat.zero_add]

/-- The state while the unit answers in lockstep and there are more readers left behind than
pieces to read. -/
def Poisoned (d : Dialogue) (st : Port) : Prop :=
  (∀ r ∈ st.results, r.2 = .ret {} (some .timeout)) ∧
  (∀ c ∈ st.pending, ¬ NoDelim c ∧ c.length ≤ 4096) ∧
  ∃ k, match d with
    | .idle => st.queue = List.replicate k { mine := none } ∧ st.active = none ∧
        st.pending.length < k
    | .asked => st.queue = List.replicate k { mine := none } ++ [{ mine := some 3 }] ∧
        st.active.isSome ∧ st.pending.length < k
    | .answered => st.queue = List.replicate k { mine := none } ++ [{ mine := some 3 }] ∧
        st.active.isSome ∧ st.pending.length ≤ k

/-- The longest waiting reader is one left behind and swallows the piece. -/
theorem deliver_swallowed {st : Port} {q : List Waiter} {c : List UInt8} {cs : List (List UInt8)}
    (hq : st.queue = { mine := none } :: q) (hp : st.pending = c :: cs) (hd : ¬ NoDelim c)
    (hl : c.length ≤ 4096) :
    st.step .deliver = { st with queue := q, pending := cs, stuck := st.stuck + 1 } := by
  obtain ⟨tok, s', hs⟩ := scan_fresh hd hl
  simp only [Port.step, hq, hp]
  simp only [List.nil_append, List.map_cons, List.map_nil, hs]
  simp [chunksOf]

theorem poisoned_deliver {d : Dialogue} {st : Port} (h : Poisoned d st) :
    Poisoned d (st.step .deliver) := by
  obtain ⟨h1, h2, k, h3⟩ := h
  cases hp : st.pending with
  | nil =>
    have : st.step .deliver = st := by
      simp only [Port.step, hp]; split <;> simp_all
    rw [this]; exact ⟨h1, h2, k, h3⟩
  | cons c cs =>
    have hc := h2 c (by simp [hp])
    have hcs : ∀ c ∈ cs, ¬ NoDelim c ∧ c.length ≤ 4096 := fun x hx => h2 x (by simp [hp, hx])
    have hk : ∃ m, k = m + 1 := by
      cases d <;> (simp only [hp, List.length_cons] at h3; exact ⟨k - 1, by omega⟩)
    obtain ⟨m, rfl⟩ := hk
    cases d with
    | idle =>
      simp only [List.replicate_succ] at h3
      rw [deliver_swallowed h3.1 hp hc.1 hc.2]
      refine ⟨h1, hcs, m, rfl, h3.2.1, ?_⟩
      have := h3.2.2; simp only [hp, List.length_cons] at this; dsimp only; omega
    | asked =>
      simp only [List.replicate_succ, List.cons_append] at h3
      rw [deliver_swallowed h3.1 hp hc.1 hc.2]
      refine ⟨h1, hcs, m, rfl, h3.2.1, ?_⟩
      have := h3.2.2; simp only [hp, List.length_cons] at this; dsimp only; omega
    | answered =>
      simp only [List.replicate_succ, List.cons_append] at h3
      rw [deliver_swallowed h3.1 hp hc.1 hc.2]
      refine ⟨h1, hcs, m, rfl, h3.2.1, ?_⟩
      have := h3.2.2; simp only [hp, List.length_cons] at this; dsimp only; omega

theorem poisoned_timeout {d : Dialogue} {st : Port} (h : Poisoned d st) :
    Poisoned .idle (st.step .timeout) := by
  obtain ⟨h1, h2, k, h3⟩ := h
  cases hact : st.active with
  | none =>
    have : st.step .timeout = st := by simp [Port.step, hact]
    rw [this]
    refine ⟨h1, h2, k, ?_⟩
    cases d <;> simp_all
  | some p =>
    simp only [Port.step, hact]
    refine ⟨?_, h2, k + 1, ?_⟩
    · intro r hr
      rcases List.mem_append.1 hr with hr | hr
      · exact h1 r hr
      · simp at hr; simp [hr]
    · cases d with
      | idle => simp [hact] at h3
      | asked =>
        refine ⟨?_, rfl, by have := h3.2.2; simp only; omega⟩
        simp [h3.1, List.replicate_succ']
      | answered =>
        refine ⟨?_, rfl, by have := h3.2.2; simp only; omega⟩
        simp [h3.1, List.replicate_succ']

theorem poisoned_exec (evs : List Ev) (d : Dialogue) (st : Port) (hl : Lockstep d evs)
    (h : Poisoned d st) : ∀ r ∈ (st.exec evs).results, r.2 = .ret {} (some .timeout) := by
  induction evs generalizing d st with
  | nil => exact h.1
  | cons e evs ih =>
    cases e with
    | timeout =>
      refine ih .idle _ ?_ (poisoned_timeout h)
      cases d <;> exact hl
    | deliver =>
      refine ih d _ ?_ (poisoned_deliver h)
      cases d <;> exact hl
    | start p =>
      obtain ⟨h1, h2, k, h3⟩ := h
      cases d with
      | idle =>
        refine ih .asked _ hl ?_
        simp only [Port.step, h3.2.1]
        exact ⟨h1, h2, k, by simp [h3.1], rfl, h3.2.2⟩
      | asked =>
        refine ih .asked _ hl ?_
        obtain ⟨p', hp'⟩ := Option.isSome_iff_exists.1 h3.2.1
        simp only [Port.step, hp']
        exact ⟨h1, h2, k, h3⟩
      | answered =>
        refine ih .answered _ hl ?_
        obtain ⟨p', hp'⟩ := Option.isSome_iff_exists.1 h3.2.1
        simp only [Port.step, hp']
        exact ⟨h1, h2, k, h3⟩
    | arrive bs =>
      obtain ⟨h1, h2, k, h3⟩ := h
      cases d with
      | idle => exact absurd hl id
      | answered => exact absurd hl id
      | asked =>
        obtain ⟨g1, g2, g3⟩ := hl
        refine ih .answered _ g3 ⟨h1, ?_, k, h3.1, h3.2.1, ?_⟩
        · intro c hc
          simp only [Port.step, List.mem_append, List.mem_singleton] at hc
          rcases hc with hc | rfl
          · exact h2 c hc
          · exact ⟨g1, g2⟩
        · have := h3.2.2
          simp only [Port.step, List.length_append, List.length_cons, List.length_nil]
          omega

/-- **C33**, how bad it is: once one query has met silence, a unit that answers every later
query, each with one piece, is never heard again. Every later query times out, for any queries,
any number of them, any answers, and whenever the pieces are read. -/
theorem C33_poisoned (p : Packet) (evs : List Ev) (h : Lockstep .idle evs) :
    ∀ r ∈ (({} : Port).exec (.start p :: .timeout :: evs)).results, r.2 = .ret {} (some .timeout) := by
  refine poisoned_exec evs .idle (({} : Port).exec [.start p, .timeout]) h ?_
  refine ⟨?_, ?_, 1, ?_⟩
  · simp [Port.exec, Port.step]
  · simp [Port.exec, Port.step]
  · simp [Port.exec, Port.step]

/-- Non-vacuity of `C33_poisoned`: three queries, all answered at once. -/
example :
    let evs : List Ev := [.start bypassQuery, .arrive bypassAnswer, .deliver, .timeout,
      .start speedCommand, .arrive ack, .deliver, .timeout,
      .start bypassQuery, .arrive bypassAnswer, .deliver, .timeout]
    Lockstep .idle evs ∧
    (({} : Port).exec (.start bypassQuery :: .timeout :: evs)).results.map (·.1) =
      [bypassQuery, bypassQuery, speedCommand, bypassQuery] := by
  refine ⟨?_, by decide⟩
  simp only [Lockstep]
  decide

/-! ## What is left behind -/

/-- **C63**, negation: a query that has returned can leave a goroutine behind for ever. -/
theorem C63_violated :
    ¬ ∀ (evs : List Ev), (({} : Port).exec evs).active = none → leftBehind (({} : Port).exec evs) = 0 := by
  intro h
  have := h [.start bypassQuery, .timeout] (by decide)
  revert this
  decide

theorem unmarshal_ne_timeout (b : List UInt8) (q : Packet) :
    unmarshalPacket b ≠ .ret q (some .timeout) := by
  by_cases h : b.length < 4
  · rw [unmarshal_short h]; simp
  · obtain ⟨z, cmd, len, raw, ck, rfl⟩ := parts_of_length (w := b) (by omega)
    rw [unmarshal_parts]
    split
    · simp
    · split <;> simp

theorem afterScan_ne_timeout {e : Bool} {n : Nat} {tok : Option (List UInt8)} {r : Go Packet}
    (h : afterScan e n tok = some r) (q : Packet) : r ≠ .ret q (some .timeout) := by
  unfold afterScan at h
  simp only at h
  repeat' split at h
  all_goals first
    | (simp at h; done)
    | (simp only [Option.some.injEq] at h; subst h; first | exact unmarshal_ne_timeout _ _ | simp)

theorem advance_ne_timeout {e : Bool} {n : Nat} {s : Scanner} {r : Go Packet}
    (h : advance e n s = .inr r) (q : Packet) : r ≠ .ret q (some .timeout) := by
  induction n generalizing s with
  | zero => simp [advance] at h; simp [← h]
  | succ n ih =>
    unfold advance at h
    split at h
    · simp at h
    · simp at h; simp [← h]
    · split at h
      · next ha => simp at h; subst h; exact afterScan_ne_timeout ha q
      · exact ih h

theorem queryResult_ne_timeout {p : Packet} {r : Go Packet}
    (h : ∀ q, r ≠ .ret q (some .timeout)) : queryResult p r ≠ .ret {} (some .timeout) := by
  unfold queryResult
  split
  · split <;> simp
  · exact h {}

/-- Who waits in the queue, and how many nobody waits for. -/
def LeakInv (st : Port) : Prop :=
  leftBehind st = timedOut st ∧
  (st.queue.filter fun w => w.mine.isSome).length = if st.active.isSome then 1 else 0

theorem finish_timedOut (st : Port) (p : Packet) {r : Go Packet}
    (h : ∀ q, r ≠ .ret q (some .timeout)) : timedOut (st.finish p r) = timedOut st := by
  have := queryResult_ne_timeout (p := p) h
  simp [timedOut, Port.finish, List.filter_append, this]

theorem leakInv_step (st : Port) (e : Ev) (h : LeakInv st) : LeakInv (st.step e) := by
  obtain ⟨h1, h2⟩ := h
  cases e with
  | start p =>
    cases ha : st.active with
    | some p' => simp only [Port.step, ha]; exact ⟨h1, h2⟩
    | none =>
      simp only [Port.step, ha]
      simp only [ha] at h2
      constructor
      · simpa [leftBehind, timedOut, List.filter_append] using h1
      · simpa [List.filter_append] using h2
  | arrive bs => exact ⟨h1, h2⟩
  | timeout =>
    cases ha : st.active with
    | none => simp only [Port.step, ha]; exact ⟨h1, h2⟩
    | some p =>
      simp only [Port.step, ha]
      simp only [ha, Option.isSome_some, if_true] at h2
      have hsum : ∀ q : List Waiter, q.length =
          (q.filter fun w => w.mine.isSome).length + (q.filter fun w => w.mine.isNone).length := by
        intro q
        induction q with
        | nil => rfl
        | cons w q ih => cases hw : w.mine <;> simp [hw, ih] <;> omega
      constructor
      · have e1 : ((st.queue.map fun w => { w with mine := none }).filter fun w => w.mine.isNone) =
            st.queue.map fun w => { w with mine := none } := by
          rw [List.filter_eq_self]
          intro w hw
          simp at hw
          obtain ⟨a, -, rfl⟩ := hw
          rfl
        have e2 := hsum st.queue
        simp only [leftBehind, timedOut] at h1 ⊢
        rw [e1]
        simp [List.filter_append]
        omega
      · have e1 : ((st.queue.map fun w => { w with mine := none }).filter fun w => w.mine.isSome) = [] := by
          rw [List.filter_eq_nil_iff]
          intro w hw
          simp at hw
          obtain ⟨a, -, rfl⟩ := hw
          simp
        rw [e1]; rfl
  | deliver =>
    simp only [Port.step]
    split
    · next w q c cs hq hp =>
      simp only [hq] at h2
      simp only [leftBehind, timedOut, hq] at h1
      split
      · simp only [LeakInv, leftBehind, timedOut, hq]; exact ⟨h1, h2⟩
      · constructor
        · simp only [leftBehind, timedOut, List.filter_append, List.length_append]
          rw [← h1]
          cases hw : w.mine <;> simp [hw] <;> omega
        · simp only [List.filter_append, List.length_append]
          rw [← h2]
          cases hw : w.mine <;> simp [hw]
      · next tok s' rest hs =>
        split
        · next n p hm ha =>
          simp only [hm, ha, List.filter_cons, Option.isSome_some, if_true, List.length_cons,
            Option.isNone_some, Bool.false_eq_true, if_false] at h1 h2
          have fin : ∀ r, (∀ q, r ≠ .ret q (some .timeout)) →
              LeakInv (Port.finish { st with queue := q, pending := chunksOf rest ++ cs } p r) := by
            intro r hr
            refine ⟨?_, ?_⟩
            · rw [finish_timedOut _ _ hr]; exact h1
            · simp only [Port.finish]; simp; simpa using h2
          split
          · next r hr => exact fin r (afterScan_ne_timeout hr)
          · split
            · next r hr => exact fin r (advance_ne_timeout hr)
            · refine ⟨?_, ?_⟩
              · simpa [leftBehind, timedOut, List.filter_append] using h1
              · simp only [List.filter_append, List.length_append, List.filter_cons,
                  Option.isSome_some, if_true, List.filter_nil, List.length_cons,
                  List.length_nil, ha]
                exact h2
        · next hno =>
          cases hw : w.mine with
          | none =>
            simp only [hw, List.filter_cons, Option.isSome_none, Option.isNone_none, if_true,
              List.length_cons, Bool.false_eq_true, if_false] at h1 h2
            refine ⟨?_, h2⟩
            simp only [leftBehind, timedOut]; omega
          | some n =>
            exfalso
            cases ha : st.active with
            | some p => exact hno n p hw ha
            | none => simp [hw, ha] at h2
    · simp only [LeakInv, leftBehind, timedOut]; exact ⟨h1, h2⟩

/-- **C63**, what is true, and exact: at any moment of any history the number of goroutines left
behind is the number of queries that have timed out so far. So a query that does not time out
leaves nothing behind, and nothing that was left behind ever goes away. -/
theorem C63_exactly_timeouts_partial (evs : List Ev) :
    leftBehind (({} : Port).exec evs) = timedOut (({} : Port).exec evs) := by
  have : ∀ (st : Port), LeakInv st → LeakInv (st.exec evs) := by
    induction evs with
    | nil => exact fun st h => h
    | cons e evs ih => exact fun st h => ih _ (leakInv_step st e h)
  exact (this {} ⟨rfl, rfl⟩).1

/-- Non-vacuity of `C63_exactly_timeouts_partial`: two of three queries have timed out; one of
the readers left behind has read an answer since, the other still waits. -/
example :
    let st := ({} : Port).exec [.start bypassQuery, .timeout, .start bypassQuery,
      .arrive bypassAnswer, .deliver, .timeout, .start speedCommand]
    leftBehind st = 2 ∧ timedOut st = 2 ∧ st.stuck = 1 ∧ st.active = some speedCommand := by
  decide

end Comfo.Props
