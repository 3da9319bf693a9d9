import Verif.Lemmas.Profiles
/-! Helper lemmas: a command that was confirmed has been carried out (C42, C59). -/
namespace Comfo
open Spec

variable {cmd : UInt8} {L : Line σ} {env : σ → σ → Prop}

structure SetInv (U : SettingUnit cmd L env) (sh : Shared σ) : Prop where
  /-- The last thing on the line was a command. -/
  pending : ∀ evs t c d r, lineEvents sh.trace = evs ++ [(t, .wrote (frame c d) r)] →
    U.last sh.world.line = frame c d ∧
      (c = cmd → U.took sh.world.line = true → U.value sh.world.line = d)
  conf : ∀ t d pre rest, Confirmed sh.trace t (frame cmd d) pre rest → NoCommand cmd rest →
    U.value sh.world.line = d

theorem snoc_inj {a b : List α} {x y : α} (h : a ++ [x] = b ++ [y]) : a = b ∧ x = y := by
  have := List.append_inj' h rfl
  exact ⟨this.1, by simpa using this.2⟩

/-- What `Confirmed` says after one more action. -/
theorem confirmed_snoc {tr : List (Tid × Act)} {x : Tid × Act} {t : Tid} {bs : List UInt8}
    {pre rest : List (Tid × Act)} (h : Confirmed (tr ++ [x]) t bs pre rest) :
    (∃ rest', rest = rest' ++ [x] ∧ Confirmed tr t bs pre rest') ∨
    (∃ r mid e q, tr = pre ++ (t, .wrote bs r) :: mid ∧ rest = mid ++ [x] ∧
      x = (t, .got e (q, none)) ∧ ∀ a, (t, a) ∉ mid) := by
  obtain ⟨r, mid, e, q, post, h1, h2, h3⟩ := h
  rcases List.eq_nil_or_concat post with rfl | ⟨post', y, rfl⟩
  · subst h2
    rw [show pre ++ (t, Act.wrote bs r) :: (mid ++ [(t, Act.got e (q, none))]) =
      (pre ++ (t, .wrote bs r) :: mid) ++ [(t, .got e (q, none))] by simp] at h1
    obtain ⟨h4, rfl⟩ := snoc_inj h1
    exact .inr ⟨r, mid, e, q, h4, rfl, rfl, h3⟩
  · subst h2
    rw [List.concat_eq_append] at h1 ⊢
    rw [show pre ++ (t, Act.wrote bs r) :: (mid ++ (t, Act.got e (q, none)) :: (post' ++ [y])) =
      (pre ++ (t, .wrote bs r) :: (mid ++ (t, .got e (q, none)) :: post')) ++ [y] by simp] at h1
    obtain ⟨h4, rfl⟩ := snoc_inj h1
    exact .inl ⟨mid ++ (t, .got e (q, none)) :: post', by simp, r, mid, e, q, post', h4, rfl, h3⟩

theorem noCommand_left {a b : List (Tid × Act)} (h : NoCommand cmd (a ++ b)) : NoCommand cmd a :=
  fun t d r hm => h t d r (List.mem_append_left _ hm)

/-- More of the trace, with nothing on the line. -/
theorem setInv_quiet {U : SettingUnit cmd L env} {sh sh' : Shared σ} (h : SetInv U sh)
    {x : Tid × Act} (ht : sh'.trace = sh.trace ++ [x]) (hl : sh'.world.line = sh.world.line)
    (hx : lineEvents [x] = []) : SetInv U sh' := by
  constructor
  · intro evs t c d r he
    rw [ht, lineEvents_append, hx, List.append_nil] at he
    rw [hl]; exact h.pending evs t c d r he
  · intro t d pre rest hc hn
    rw [ht] at hc
    rw [hl]
    rcases confirmed_snoc hc with ⟨rest', rfl, hc'⟩ | ⟨r, mid, e, q, -, -, rfl, -⟩
    · exact h.conf t d pre rest' hc' (noCommand_left hn)
    · simp [lineEvents] at hx

theorem got_last {g : Tid → G1} {sh : Shared σ} {t : Tid} {e : Bool} {r : Packet × Option Err}
    (hG : Glob1 g sh) (hm : must1 (g t) (.got e r)) :
    ∃ evs c d r', lineEvents sh.trace = evs ++ [(t, .wrote (frame c d) r')] := by
  have first : ∃ bs r, (g t).tx = [.wrote bs r] := by
    obtain ⟨rest, cmd, d, e', r', ht⟩ := hm.2.2
    generalize hx : (g t).tx ++ [IoEv.got e r] ++ rest = l at ht
    match htx : (g t).tx with
    | [] => rw [htx] at hx; cases ht <;> simp at hx
    | [.wrote bs r] => exact ⟨bs, r, rfl⟩
    | [.got _ _] => rw [htx] at hx; cases ht <;> simp at hx
    | [.refresh _ _] => rw [htx] at hx; cases ht <;> simp at hx
    | [.answered _] => rw [htx] at hx; cases ht <;> simp at hx
    | a :: b :: l' =>
      rw [htx] at hx
      match l' with
      | [] => cases ht <;> simp at hx
      | _ :: _ => cases ht <;> simp at hx
  obtain ⟨bs, r', htx⟩ := first
  obtain ⟨blocks, t₀, -, ho, hs⟩ := hG.serial
  have : t = t₀ := Classical.byContradiction fun hn => by
    have := ho t hn; rw [htx] at this; cases this
  subst this
  obtain ⟨c, d, rfl⟩ := part_frame (by have := hG.tx_part t; rwa [htx] at this)
  exact ⟨_, c, d, r', by rw [hs, htx]; rfl⟩

theorem mem_lineEvents {t : Tid} {ev : IoEv} {tr : List (Tid × Act)}
    (h : (t, ev) ∈ lineEvents tr) : ∃ a, (t, a) ∈ tr := by
  simp only [lineEvents, List.mem_filterMap] at h
  obtain ⟨⟨u, a⟩, h1, h2⟩ := h
  cases a <;> simp at h2
  · obtain ⟨rfl, -⟩ := h2; exact ⟨_, h1⟩
  · obtain ⟨rfl, -⟩ := h2; exact ⟨_, h1⟩

/-- The last thing on the line is what the goroutine wrote last. -/
theorem last_own {t : Tid} {bs : List UInt8} {r : Nat × Option Err} {pre mid : List (Tid × Act)}
    {evs : List (Tid × IoEv)} {ev : IoEv}
    (h : lineEvents (pre ++ (t, .wrote bs r) :: mid) = evs ++ [(t, ev)]) (hm : ∀ a, (t, a) ∉ mid) :
    ev = .wrote bs r := by
  rw [lineEvents_append, show (t, Act.wrote bs r) :: mid = [(t, .wrote bs r)] ++ mid from rfl,
    lineEvents_append] at h
  rcases List.eq_nil_or_concat (lineEvents mid) with h0 | ⟨l, y, h0⟩
  · rw [h0, List.append_nil, show lineEvents [(t, Act.wrote bs r)] = [(t, .wrote bs r)] from rfl] at h
    have := (snoc_inj h).2
    cases this; rfl
  · rw [h0, List.concat_eq_append, ← List.append_assoc, ← List.append_assoc] at h
    have := (snoc_inj h).2
    subst this
    obtain ⟨a, ha⟩ := mem_lineEvents (tr := mid) (t := t) (ev := ev) (by rw [h0]; simp)
    exact absurd ha (hm a)

theorem frame_cmd {c c' : UInt8} {d d' : List UInt8} (h : frame c d = frame c' d') : c = c' := by
  simp [frame, body] at h
  exact h.1

theorem setInv_act {U : SettingUnit cmd L env} {g : Tid → G1} {t : Tid} {a : Act}
    {sh sh' : Shared σ} (hG : Glob1 g sh) (h : SetInv U sh) (ha : Acts L t a sh sh')
    (hm : must1 (g t) a) : SetInv U sh' := by
  cases ha with
  | @wrote bs r line _ hr =>
    constructor
    · intro evs u c d r' he
      rw [lineEvents_append] at he
      obtain ⟨-, he⟩ := snoc_inj (a := lineEvents sh.trace) (x := (t, IoEv.wrote bs r)) he
      simp only [Prod.mk.injEq, IoEv.wrote.injEq] at he
      obtain ⟨-, rfl, -⟩ := he
      refine ⟨U.write_last hr (frame_ne_ack _ _), ?_⟩
      rintro rfl htook
      rcases U.write_set hr with ⟨h1, -⟩ | ⟨-, h1⟩
      · exact h1
      · exact absurd (htook.symm.trans h1) (by decide)
    · intro u d pre rest hc hn
      rcases confirmed_snoc hc with ⟨rest', rfl, hc'⟩ | ⟨r, mid, e, q, -, -, hx, -⟩
      · refine (U.write_other hr ?_).trans (h.conf u d pre rest' hc' (noCommand_left hn))
        rintro d' rfl
        exact hn t d' r (by simp)
      · cases hx
  | @got e line q err _ hr =>
    obtain ⟨evs, c, d, r', hev⟩ := got_last hG hm
    constructor
    · intro evs' u c' d' r'' he
      rw [lineEvents_append] at he
      have := (snoc_inj (a := lineEvents sh.trace) (x := (t, IoEv.got e (q, err))) he).2
      cases this
    · intro u d' pre rest hc hn
      refine (U.read_same hr).trans ?_
      rcases confirmed_snoc hc with ⟨rest', rfl, hc'⟩ | ⟨r, mid, e', q', htr, -, hx, hmid⟩
      · exact h.conf u d' pre rest' hc' (noCommand_left hn)
      · simp only [Prod.mk.injEq, Act.got.injEq] at hx
        obtain ⟨rfl, rfl, rfl, rfl⟩ := hx
        obtain ⟨h1, h2⟩ := h.pending evs t c d r' hev
        rw [htr] at hev
        have := last_own hev hmid
        simp only [IoEv.wrote.injEq] at this
        have hc := frame_cmd this.1
        subst hc
        rw [this.1] at h1
        obtain ⟨-, h2⟩ := h.pending evs t c d' r' (by rw [htr, hev, this.1])
        exact h2 rfl (U.read_ack hr h1)
  | lock => exact setInv_quiet h rfl rfl rfl
  | unlock => exact setInv_quiet h rfl rfl rfl
  | rlock => exact setInv_quiet h rfl rfl rfl
  | runlock => exact setInv_quiet h rfl rfl rfl
  | now => exact setInv_quiet h rfl rfl rfl
  | sleep => exact setInv_quiet h rfl rfl rfl
  | load => exact setInv_quiet h rfl rfl rfl
  | @store _ id e => exact setInv_quiet h rfl (by cases id <;> rfl) rfl
  | note => exact setInv_quiet h rfl rfl rfl

/-- The rules, with the history of a setting. -/
def scheme4 (S : Setup σ) (U : SettingUnit cmd S.line S.env) : Scheme S G1 where
  R := R1
  Q := Returns
  unborn := {}
  born := born1
  idle := idle1
  flushing := flushing1
  K := K1
  k_born c := ⟨rfl, rfl, rfl⟩
  k_post := k1_post
  G g sh := Glob1 g sh ∧ SetInv U sh
  ok_call := (scheme1 S).ok_call
  ok_tick := (scheme1 S).ok_tick
  ok_flush := (scheme1 S).ok_flush
  may_act _ ha := may1_act ha
  g_act h ha hm := ⟨glob1_act h.1 ha hm, setInv_act h.1 h.2 ha hm⟩
  g_env := by
    intro g sh line ns h he
    obtain ⟨e1, e2, e3⟩ := U.env_same he
    refine ⟨(scheme1 S).g_env h.1 he, ?_, ?_⟩
    · intro evs t c d r hev
      obtain ⟨h1, h2⟩ := h.2.pending evs t c d r hev
      exact ⟨e2.trans h1, fun hc ht => e1.trans (h2 hc (e3.symm.trans ht))⟩
    · intro t d pre rest hc hn
      exact e1.trans (h.2.conf t d pre rest hc hn)
  g_born h _ hi := ⟨glob1_born h.1 hi, h.2⟩
  may_send _ _ := trivial
  g_send h hw hm := ⟨glob1_send h.1 hw hm, setInv_quiet h.2 rfl rfl rfl⟩
  may_answer _ := trivial
  may_recv h hm _ := may1_recv h.1 hm
  g_recv := by
    intro g sh i b h hm hr
    refine ⟨glob1_recv h.1 hm hr, ?_⟩
    refine setInv_quiet (x := (.client i, .recvFlushed b))
      (setInv_quiet (x := (.worker, .sendFlushed b))
        (sh' := { sh with trace := sh.trace ++ [(.worker, .sendFlushed b)] }) h.2 rfl rfl rfl)
      ?_ rfl rfl
    simp

theorem inv4 {S : Setup σ} (U : SettingUnit cmd S.line S.env) {w : World σ} {s : Sys σ}
    (h : Reachable S (Sys.initial w) s) : ∃ g, (scheme4 S U).Inv g s := by
  refine (scheme4 S U).sound ⟨glob1_start w _ rfl fun _ => rfl, ?_, ?_⟩ h
  · intro evs t c d r he
    simp [lineEvents] at he
  · rintro t d pre rest ⟨r, mid, e, q, post, h1, -⟩
    simp at h1

/-! ## Paths -/

theorem path_bind {p : Prog α} {f : α → Prog β} {acts : List Act} {b : β}
    (h : Path (p.bind f) acts (.ret b)) :
    ∃ a as bs, acts = as ++ bs ∧ Path p as (.ret a) ∧ Path (f a) bs (.ret b) := by
  have cons : ∀ {p p' : Prog α} {x : Act} {as : List Act} {a : α}, p.Next x p' → Path p' as (.ret a) →
      Path p (x :: as) (.ret a) := by
    intro p p' x as a hn hp
    generalize hq : Prog.ret a = q at hp
    clear hq
    induction hp with
    | nil => exact Path.snoc (acts := []) .nil hn
    | snoc _ h2 ih => exact Path.snoc ih h2
  induction p generalizing acts with
  | ret a => exact ⟨a, [], acts, rfl, .nil, h⟩
  | panic =>
    rcases path_uncons h with ⟨-, h0⟩ | ⟨a1, p1, acts1, -, h1, -⟩
    · cases h0
    · cases h1
  | _ =>
    rename_i ih
    rcases path_uncons h with ⟨-, h0⟩ | ⟨a1, p1, acts1, rfl, h1, h2⟩
    · cases h0
    cases h1
    obtain ⟨a, as, bs, rfl, h3, h4⟩ := by first | exact ih h2 | exact ih _ h2
    exact ⟨a, _ :: as, bs, rfl, cons (by constructor) h3, h4⟩

end Comfo
