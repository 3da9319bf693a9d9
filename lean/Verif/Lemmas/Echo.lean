import Verif.Lemmas.Setting
import Verif.Lemmas.Served
/-! Helper lemmas: what is read back after a command was confirmed (C66). -/
namespace Comfo
open Spec Props

variable {cmd : UInt8} {id : CacheId} {shows : List UInt8 → CVal id → Prop} {L : Line σ}
  {env : σ → σ → Prop}

/-- How far the query of a goroutine is, by the state of its refresh. -/
def CurTx (id : CacheId) (c : Cur) (tx : List IoEv) : Prop :=
  match c with
  | .asked _ => ∃ n, tx = [.wrote (frame (requestCode id) []) (n, none)]
  | .replied pl _ => ∃ n q, tx = [.wrote (frame (requestCode id) []) (n, none), .got true (q, none)] ∧
      q.command = requestCode id + 1 ∧ q.data = pl
  | _ => True

theorem curTx_nil {c : Cur} (h : CurTx id c []) : (∀ t, c ≠ .asked t) ∧ ∀ pl t, c ≠ .replied pl t := by
  constructor
  · rintro t rfl; obtain ⟨n, h⟩ := h; cases h
  · rintro pl t rfl; obtain ⟨n, q, h, -⟩ := h; cases h

theorem curTx_ev {c : Cur} {tx : List IoEv} {ev : IoEv} (x : Option (CVal id × Int))
    (h : CurTx id c tx) (hp : PartOfQuery (tx ++ [ev])) (hr : ∀ i t, ev ≠ .refresh i t) :
    CurTx id (scanEv id (x, c) ev).2 (tx ++ [ev]) := by
  rcases ev with ⟨bs, n, _ | e⟩ | ⟨_ | _, q, _ | e⟩ | ⟨i, t⟩ | b <;> cases c <;> try trivial
  · rename_i t
    simp only [scanEv]
    split
    · rename_i hb
      subst hb
      obtain ⟨rest, c', d', e', r', ht⟩ := hp
      match tx with
      | [] => exact ⟨n, rfl⟩
      | a :: tx =>
        exfalso
        generalize hx : (a :: tx) ++ [IoEv.wrote (frame (requestCode id) []) (n, none)] ++ rest = l at ht
        have : ∀ y ∈ l.tail, ∀ bs r, y = IoEv.wrote bs r → bs = ack := by
          cases ht <;> simp
        exact frame_ne_ack _ _ (this (.wrote (frame (requestCode id) []) (n, none))
          (by rw [← hx]; simp) _ _ rfl)
    · trivial
  · rename_i pl t
    simp only [scanEv]
    split <;> trivial
  · rename_i t
    simp only [scanEv]
    split
    · rename_i hc
      obtain ⟨n, rfl⟩ := h
      exact ⟨n, q, rfl, hc, rfl⟩
    · trivial
  · exact absurd rfl (hr _ _)
  · exact absurd rfl (hr _ _)
  · exact absurd rfl (hr _ _)
  · exact absurd rfl (hr _ _)

/-- The end of a query. -/
theorem curTx_whole {c : Cur} {tx : List IoEv} (h : CurTx id c tx) (hw : WholeQuery tx) :
    CurTx id c [] := by
  obtain ⟨cm, d, e, r, ht⟩ := hw
  cases c with
  | idle => trivial
  | begun t => trivial
  | asked t =>
    obtain ⟨n, rfl⟩ := h
    generalize frame (requestCode id) [] = bs at ht
    cases ht
  | replied pl t =>
    obtain ⟨n, q, rfl, hq, -⟩ := h
    exfalso
    generalize hx : frame (requestCode id) [] = bs at ht
    generalize hy : true = b at ht
    cases ht with
    | wrongReply n q h1 h2 =>
      have := frame_cmd hx
      exact h2 (by rw [← this]; exact hq)

/-- How far everybody is with its refresh when goroutine `t` has written another command. -/
def others (t : Tid) (c : Tid → Cur) : Tid → Cur := fun u => if u = t then .idle else c u

theorem scanEv_command {bs : List UInt8} (r : Nat × Option Err) (h1 : bs ≠ ack)
    (h2 : bs ≠ frame (requestCode id) []) (x : Option (CVal id × Int)) (c : Cur) :
    scanEv id (x, c) (.wrote bs r) = (x, .idle) := by
  obtain ⟨n, _ | e⟩ := r <;> cases c <;> simp only [scanEv]
  · simp [h2]
  · split <;> simp [h1]

theorem scanAct_command {bs : List UInt8} (r : Nat × Option Err) (h1 : bs ≠ ack)
    (h2 : bs ≠ frame (requestCode id) []) (s : Option (CVal id × Int) × (Tid → Cur)) (t : Tid) :
    scanAct id s (t, .wrote bs r) = (s.1, others t s.2) := by
  simp only [scanAct, evOf, scanEv_command r h1 h2]
  rfl

/-- The first component does not influence the rest. -/
theorem scan_fst (id : CacheId) (tr : List (Tid × Act)) (x : Option (CVal id × Int)) (c : Tid → Cur) :
    (tr.foldl (scanAct id) (x, c)).2 = (tr.foldl (scanAct id) (none, c)).2 ∧
    (tr.foldl (scanAct id) (x, c)).1 = ((tr.foldl (scanAct id) (none, c)).1).or x := by
  induction tr generalizing x c with
  | nil => simp
  | cons y tr ih =>
    simp only [List.foldl_cons]
    have e : ∀ z, scanAct id (z, c) y = ((scanAct id (z, c) y).1, (scanAct id (none, c) y).2) := by
      intro z
      refine Prod.ext rfl ?_
      simp only [scanAct]
      cases evOf y.2 with
      | none => rfl
      | some ev => simp only [scanEv_snd id z none (c y.1) ev]
    rw [e x, e none]
    rw [(ih (scanAct id (x, c) y).1 _).1, (ih (scanAct id (none, c) y).1 _).1,
      (ih (scanAct id (x, c) y).1 _).2, (ih (scanAct id (none, c) y).1 _).2]
    refine ⟨rfl, ?_⟩
    simp only [scanAct]
    cases evOf y.2 with
    | none => simp
    | some ev =>
      simp only
      rcases scanEv_fst id (c y.1) ev with h | ⟨v, h⟩
      · rw [h, h]; simp
      · rw [h, h]
        cases (List.foldl (scanAct id) _ tr).1 <;> rfl

theorem scanAll_append (id : CacheId) (a b : List (Tid × Act)) :
    scanAll id (a ++ b) = b.foldl (scanAct id) (scanAll id a) := by
  simp [scanAll]

/-- The last refresh that succeeds in `rest`; `c`: how far each goroutine is before. -/
def successes (id : CacheId) (c : Tid → Cur) (rest : List (Tid × Act)) : Option (CVal id × Int) :=
  (rest.foldl (scanAct id) (none, c)).1

structure EchoInv (U : ReportUnit cmd id shows L env) (g : Tid → G1) (sh : Shared σ) : Prop where
  cur : ∀ u, CurTx id ((scanAll id sh.trace).2 u) (g u).tx
  /-- Whatever is read back after the command shows the setting. -/
  echo : ∀ tr post t d pre rest, sh.trace = tr ++ post → Confirmed tr t (frame cmd d) pre rest →
    NoCommand cmd rest → ∀ v τ, successes id (others t (scanAll id pre).2) rest = some (v, τ) → shows d v
  pend : ∀ t d pre rest, Confirmed sh.trace t (frame cmd d) pre rest → NoCommand cmd rest →
    ∀ u pl τ, (scanAll id sh.trace).2 u = .replied pl τ → ∀ v, decode id pl = some v → shows d v

theorem tx_last {g : Tid → G1} {sh : Shared σ} {t : Tid} {ev : IoEv} (hG : Glob1 g sh)
    (h : (g t).tx = [ev]) : ∃ evs, lineEvents sh.trace = evs ++ [(t, ev)] := by
  obtain ⟨blocks, t₀, -, ho, hs⟩ := hG.serial
  have : t = t₀ := Classical.byContradiction fun hn => by
    have := ho t hn; rw [h] at this; cases this
  subst this
  exact ⟨_, by rw [hs, h]; rfl⟩

theorem tx_alone {g : Tid → G1} {sh : Shared σ} {t u : Tid} (hG : Glob1 g sh)
    (h : (g t).tx ≠ []) (hu : u ≠ t) : (g u).tx = [] := by
  obtain ⟨blocks, t₀, -, ho, hs⟩ := hG.serial
  have : t = t₀ := Classical.byContradiction fun hn => h (ho t hn)
  subst this
  exact ho u hu

theorem scanAct_at (s : Option (CVal id × Int) × (Tid → Cur)) {t : Tid} {a : Act} {ev : IoEv}
    (h : evOf a = some ev) : (scanAct id s (t, a)).1 = (scanEv id (s.1, s.2 t) ev).1 ∧
      (scanAct id s (t, a)).2 t = (scanEv id (s.1, s.2 t) ev).2 := by
  simp [scanAct, h]

theorem scanAct_off (s : Option (CVal id × Int) × (Tid → Cur)) {t u : Tid} {a : Act} (h : u ≠ t) :
    (scanAct id s (t, a)).2 u = s.2 u := by
  unfold scanAct
  cases evOf a <;> simp [h]

/-- Where everybody is, from the command on. -/
theorem scan_from {tr pre rest : List (Tid × Act)} {t : Tid} {d : List UInt8}
    (hcmd : cmd ≠ requestCode id) (h : Confirmed tr t (frame cmd d) pre rest) :
    scanAll id tr = ((successes id (others t (scanAll id pre).2) rest).or (scanAll id pre).1,
      (rest.foldl (scanAct id) (none, others t (scanAll id pre).2)).2) := by
  obtain ⟨r, -, -, -, -, rfl, -⟩ := h
  rw [scanAll_append, List.foldl_cons,
    scanAct_command r (frame_ne_ack _ _) (fun h => hcmd (frame_cmd h))]
  obtain ⟨h1, h2⟩ := scan_fst id rest (scanAll id pre).1 (others t (scanAll id pre).2)
  exact Prod.ext h2 h1

/-- A goroutine that gets an answer is the only one on the line since it wrote. -/
theorem mid_quiet {g : Tid → G1} {sh : Shared σ} {t : Tid} {e : Bool} {q : Packet × Option Err}
    {bs : List UInt8} {r : Nat × Option Err} {pre mid : List (Tid × Act)}
    (hG : Glob1 g sh) (hm : must1 (g t) (.got e q)) (htr : sh.trace = pre ++ (t, .wrote bs r) :: mid)
    (hmid : ∀ a, (t, a) ∉ mid) : lineEvents mid = [] := by
  obtain ⟨evs, c, d, r', hev⟩ := got_last hG hm
  rcases List.eq_nil_or_concat (lineEvents mid) with h0 | ⟨l, y, h0⟩
  · exact h0
  · exfalso
    rw [htr, lineEvents_append, show (t, Act.wrote bs r) :: mid = [(t, .wrote bs r)] ++ mid from rfl,
      lineEvents_append, h0, List.concat_eq_append, ← List.append_assoc, ← List.append_assoc] at hev
    have := (snoc_inj hev).2
    subst this
    obtain ⟨a, ha⟩ := mem_lineEvents (tr := mid) (t := t) (ev := .wrote (frame c d) r') (by rw [h0]; simp)
    exact hmid a ha

theorem scan_quiet {mid : List (Tid × Act)} (h : lineEvents mid = [])
    (s : Option (CVal id × Int) × (Tid → Cur)) : (mid.foldl (scanAct id) s).1 = s.1 := by
  induction mid generalizing s with
  | nil => rfl
  | cons x mid ih =>
    rw [show x :: mid = [x] ++ mid from rfl, lineEvents_append] at h
    obtain ⟨h1, h2⟩ := List.append_eq_nil_iff.mp h
    rw [List.foldl_cons, ih h2]
    obtain ⟨t, a⟩ := x
    cases a <;> try rfl
    · simp [lineEvents] at h1
    · simp [lineEvents] at h1

/-- The query of a goroutine after one more action. -/
theorem tx_step {g : G1} {a : Act} (hm : must1 g a) :
    (evOf a = none ∧ ((post1 g a).tx = g.tx ∨ (post1 g a).tx = [] ∧ WholeQuery g.tx)) ∨
    (∃ i t, a = .note i t ∧ (post1 g a).tx = g.tx) ∨
    (∃ ev, evOf a = some ev ∧ (∀ i t, ev ≠ .refresh i t) ∧ PartOfQuery (g.tx ++ [ev]) ∧
      (post1 g a).tx = g.tx ++ [ev]) := by
  cases a with
  | unlock l =>
    refine .inl ⟨rfl, ?_⟩
    by_cases hl : l = .pm
    · subst hl
      rcases hm.2.2 rfl with h | h
      · exact .inl (by simp [post1, h])
      · exact .inr ⟨by simp [post1], h⟩
    · exact .inl (by simp [post1, hl])
  | wrote bs r => exact .inr (.inr ⟨_, rfl, by simp, hm.2.2.1, rfl⟩)
  | got e r => exact .inr (.inr ⟨_, rfl, by simp, hm.2.2, rfl⟩)
  | note i t => exact .inr (.inl ⟨i, t, rfl, rfl⟩)
  | _ => exact .inl ⟨rfl, .inl rfl⟩

/-- What can come of one event. -/
theorem scanEv_some {x : Option (CVal id × Int)} {c : Cur} {ev : IoEv} {v : CVal id} {τ : Int}
    (h : (scanEv id (x, c) ev).1 = some (v, τ)) :
    x = some (v, τ) ∨ ∃ pl t, c = .replied pl t ∧ decode id pl = some v := by
  rcases ev with ⟨bs, n, _ | e⟩ | ⟨_ | _, q, _ | e⟩ | ⟨i, t⟩ | b <;> cases c <;>
    try exact .inl h
  rename_i pl t
  simp only [scanEv] at h
  split at h
  · rename_i w hw
    split at h
    · simp only [Option.some.injEq, Prod.mk.injEq] at h
      obtain ⟨rfl, -⟩ := h
      exact .inr ⟨pl, t, rfl, hw⟩
    · exact .inl h
  · exact .inl h

theorem scanEv_replied {x : Option (CVal id × Int)} {c : Cur} {ev : IoEv} {pl : List UInt8} {τ : Int}
    (h : (scanEv id (x, c) ev).2 = .replied pl τ) :
    ∃ q, ev = .got true (q, none) ∧ c = .asked τ ∧ q.command = requestCode id + 1 ∧ q.data = pl := by
  rcases ev with ⟨bs, n, _ | e⟩ | ⟨_ | _, q, _ | e⟩ | ⟨i, t⟩ | b <;> cases c <;>
    simp only [scanEv] at h <;> try cases h
  all_goals first
    | (split at h <;> cases h; done)
    | skip
  split at h
  · rename_i hq
    cases h
    exact ⟨q, rfl, rfl, hq, rfl⟩
  · cases h

theorem curTx_act {g : G1} {s : Option (CVal id × Int) × (Tid → Cur)} {t : Tid} {a : Act}
    (h : CurTx id (s.2 t) g.tx) (hm : must1 g a) :
    CurTx id ((scanAct id s (t, a)).2 t) (post1 g a).tx := by
  rcases tx_step hm with ⟨he, htx⟩ | ⟨i, τ, rfl, htx⟩ | ⟨ev, he, hr, hp, htx⟩
  · have : scanAct id s (t, a) = s := by simp [scanAct, he]
    rw [this]
    rcases htx with htx | ⟨htx, hw⟩
    · rw [htx]; exact h
    · rw [htx]; exact curTx_whole h hw
  · rw [(scanAct_at s (ev := .refresh i τ) rfl).2]
    simp only [scanEv]
    split <;> trivial
  · rw [(scanAct_at s he).2, htx]
    exact curTx_ev _ h hp hr

theorem echoInv_act {U : ReportUnit cmd id shows L env} {g : Tid → G1} {t : Tid} {a : Act}
    {sh sh' : Shared σ} (hcmd : cmd ≠ requestCode id) (hG : Glob1 g sh)
    (hS : SetInv U.toSettingUnit sh) (h : EchoInv U g sh) (ha : Acts L t a sh sh')
    (hm : must1 (g t) a) : EchoInv U (upd g t (post1 (g t) a)) sh' := by
  have htr := acts_trace ha
  have hscan : scanAll id sh'.trace = scanAct id (scanAll id sh.trace) (t, a) := by
    rw [htr, scanAll_snoc]
  -- the answer that a goroutine just got
  have fresh : ∀ {q τ}, a = .got true (q, none) → (scanAll id sh.trace).2 t = .asked τ →
      q.command = requestCode id + 1 → ∀ v, decode id q.data = some v →
      shows (U.value sh.world.line) v := by
    rintro q τ rfl hc hq v hv
    have hcur := h.cur t
    rw [hc] at hcur
    obtain ⟨n, htx⟩ := hcur
    obtain ⟨evs, hev⟩ := tx_last hG htx
    obtain ⟨hl, -⟩ := hS.pending evs t _ [] _ hev
    cases ha with
    | got hr => exact U.read_reply hr hl hq hv
  have hpend : ∀ t' d pre rest, Confirmed sh.trace t' (frame cmd d) pre rest → NoCommand cmd rest →
      ∀ u pl τ, (scanAct id (scanAll id sh.trace) (t, a)).2 u = .replied pl τ →
      ∀ v, decode id pl = some v → shows d v := by
    intro t' d pre rest hc hn u pl τ hr v hv
    by_cases hu : u = t
    · subst hu
      cases he : evOf a with
      | none =>
        have : scanAct id (scanAll id sh.trace) (u, a) = scanAll id sh.trace := by simp [scanAct, he]
        rw [this] at hr
        exact h.pend t' d pre rest hc hn u pl τ hr v hv
      | some ev =>
        rw [(scanAct_at _ he).2] at hr
        obtain ⟨q, rfl, h1, h2, rfl⟩ := scanEv_replied hr
        have hd := hS.conf t' d pre rest hc hn
        rw [← hd]
        refine fresh ?_ h1 h2 v hv
        cases a <;> simp [evOf] at he
        rw [he.1, he.2]
    · rw [scanAct_off _ hu] at hr
      exact h.pend t' d pre rest hc hn u pl τ hr v hv
  constructor
  · intro u
    rw [hscan]
    by_cases hu : u = t
    · subst hu
      rw [upd_same]
      exact curTx_act (h.cur u) hm
    · rw [upd_other _ _ hu, scanAct_off _ hu]
      exact h.cur u
  · intro tr post t' d pre rest htr' hc hn v τ hs
    rw [htr] at htr'
    rcases List.eq_nil_or_concat post with rfl | ⟨post', y, rfl⟩
    · rw [List.append_nil] at htr'
      rw [← htr'] at hc
      rcases confirmed_snoc hc with ⟨rest', rfl, hc'⟩ | ⟨r, mid, e, q, htr1, rfl, hx, hmid⟩
      · have hn' := noCommand_left hn
        have hsf := scan_from (id := id) hcmd hc'
        simp only [successes, List.foldl_append, List.foldl_cons, List.foldl_nil] at hs
        have h2 : (rest'.foldl (scanAct id) (none, others t' (scanAll id pre).2)).2 =
            (scanAll id sh.trace).2 := by rw [hsf]
        cases he : evOf a with
        | none =>
          rw [show ∀ s, scanAct id s (t, a) = s from fun s => by simp [scanAct, he]] at hs
          exact h.echo _ [] t' d pre rest' (List.append_nil _).symm hc' hn' v τ hs
        | some ev =>
          rw [(scanAct_at _ he).1] at hs
          rcases scanEv_some hs with hs | ⟨pl, τ', h3, h4⟩
          · exact h.echo _ [] t' d pre rest' (List.append_nil _).symm hc' hn' v τ hs
          · rw [h2] at h3
            exact h.pend t' d pre rest' hc' hn' t pl τ' h3 v h4
      · simp only [Prod.mk.injEq] at hx
        obtain ⟨rfl, rfl⟩ := hx
        exfalso
        have hq := mid_quiet hG hm htr1 hmid
        simp only [successes, List.foldl_append, List.foldl_cons, List.foldl_nil] at hs
        rw [(scanAct_at _ (ev := .got e (q, none)) rfl).1] at hs
        rcases scanEv_some hs with hs | ⟨pl, τ', h3, h4⟩
        · rw [scan_quiet hq] at hs; cases hs
        · have hcv : (scanAll id sh.trace).2 t = .replied pl τ' := by
            rw [htr1, scanAll_append, List.foldl_cons,
              scanAct_command r (frame_ne_ack _ _) (fun h => hcmd (frame_cmd h)), (scan_fst id mid _ _).1]
            exact h3
          have hcur := h.cur t
          rw [hcv] at hcur
          obtain ⟨n, q', htx, -⟩ := hcur
          obtain ⟨rest, c', d', e', r', ht⟩ := hm.2.2
          rw [htx] at ht
          generalize frame (requestCode id) [] = bs at ht
          cases ht
    · have : sh.trace = tr ++ post' := by
        rw [List.concat_eq_append, ← List.append_assoc] at htr'
        exact (snoc_inj htr').1
      exact h.echo tr post' t' d pre rest this hc hn v τ hs
  · intro t' d pre rest hc hn u pl τ hr v hv
    rw [hscan] at hr
    rw [htr] at hc
    rcases confirmed_snoc hc with ⟨rest', rfl, hc'⟩ | ⟨r, mid, e, q, htr1, rfl, hx, hmid⟩
    · exact hpend t' d pre rest' hc' (noCommand_left hn) u pl τ hr v hv
    · simp only [Prod.mk.injEq] at hx
      obtain ⟨rfl, rfl⟩ := hx
      exfalso
      have hne : (g t).tx ≠ [] := by
        intro h0
        obtain ⟨rest, c', d', e', r', ht⟩ := hm.2.2
        rw [h0] at ht
        cases ht
      by_cases hu : u = t
      · subst hu
        rw [(scanAct_at _ (ev := .got e (q, none)) rfl).2] at hr
        obtain ⟨q', -, h1, -, -⟩ := scanEv_replied hr
        have hcur := h.cur u
        rw [h1] at hcur
        obtain ⟨n, htx⟩ := hcur
        obtain ⟨evs, hev⟩ := tx_last hG htx
        rw [htr1] at hev
        have := last_own hev hmid
        simp only [IoEv.wrote.injEq] at this
        exact hcmd (frame_cmd this.1).symm
      · rw [scanAct_off _ hu] at hr
        have hcur := h.cur u
        rw [tx_alone hG hne hu] at hcur
        exact (curTx_nil hcur).2 _ _ hr

/-- Ghost states with the same queries under way. -/
theorem echoInv_congr {U : ReportUnit cmd id shows L env} {g g' : Tid → G1} {sh sh' : Shared σ}
    (h : EchoInv U g sh) (htr : sh'.trace = sh.trace) (hg : ∀ u, (g' u).tx = (g u).tx) :
    EchoInv U g' sh' := by
  constructor
  · intro u; rw [htr, hg]; exact h.cur u
  · rw [htr]; exact h.echo
  · rw [htr]; exact h.pend

/-- An action that is not on the line. -/
theorem echoInv_quiet {U : ReportUnit cmd id shows L env} {g g' : Tid → G1} {sh sh' : Shared σ}
    (h : EchoInv U g sh) {x : Tid × Act} (htr : sh'.trace = sh.trace ++ [x])
    (hx : evOf x.2 = none) (hg : ∀ u, (g' u).tx = (g u).tx) : EchoInv U g' sh' := by
  have hs : ∀ s, scanAct id s x = s := fun s => by simp [scanAct, hx]
  have hscan : scanAll id sh'.trace = scanAll id sh.trace := by rw [htr, scanAll_snoc, hs]
  have hcf : ∀ {t d pre rest}, Confirmed (sh.trace ++ [x]) t (frame cmd d) pre rest →
      ∃ rest', rest = rest' ++ [x] ∧ Confirmed sh.trace t (frame cmd d) pre rest' := by
    intro t d pre rest hc
    rcases confirmed_snoc hc with h1 | ⟨r, mid, e, q, -, -, rfl, -⟩
    · exact h1
    · cases hx
  constructor
  · intro u; rw [hscan, hg]; exact h.cur u
  · intro tr post t d pre rest htr' hc hn v τ hsu
    rw [htr] at htr'
    rcases List.eq_nil_or_concat post with rfl | ⟨post', y, rfl⟩
    · rw [List.append_nil] at htr'
      rw [← htr'] at hc
      obtain ⟨rest', rfl, hc'⟩ := hcf hc
      simp only [successes, List.foldl_append, List.foldl_cons, List.foldl_nil, hs] at hsu
      exact h.echo _ [] t d pre rest' (List.append_nil _).symm hc' (noCommand_left hn) v τ hsu
    · have : sh.trace = tr ++ post' := by
        rw [List.concat_eq_append, ← List.append_assoc] at htr'
        exact (snoc_inj htr').1
      exact h.echo tr post' t d pre rest this hc hn v τ hsu
  · intro t d pre rest hc hn
    rw [htr] at hc
    obtain ⟨rest', rfl, hc'⟩ := hcf hc
    rw [hscan]
    exact h.pend t d pre rest' hc' (noCommand_left hn)

/-- The rules, with what is read back. -/
def scheme6 (S : Setup σ) (hcmd : cmd ≠ requestCode id) (U : ReportUnit cmd id shows S.line S.env) :
    Scheme S G1 where
  R := R1
  Q := Returns
  unborn := {}
  born := born1
  idle := idle1
  flushing := flushing1
  K := K1
  k_born c := ⟨rfl, rfl, rfl⟩
  k_post := k1_post
  G g sh := (Glob1 g sh ∧ SetInv U.toSettingUnit sh) ∧ EchoInv U g sh
  ok_call := (scheme1 S).ok_call
  ok_tick := (scheme1 S).ok_tick
  ok_flush := (scheme1 S).ok_flush
  may_act _ ha := may1_act ha
  g_act h ha hm := ⟨(scheme4 S U.toSettingUnit).g_act h.1 ha hm, echoInv_act hcmd h.1.1 h.1.2 h.2 ha hm⟩
  g_env h he := ⟨(scheme4 S U.toSettingUnit).g_env h.1 he, echoInv_congr h.2 rfl fun _ => rfl⟩
  g_born := by
    intro g sh c i h hS hi
    refine ⟨(scheme4 S U.toSettingUnit).g_born h.1 hS hi, echoInv_congr h.2 rfl fun u => ?_⟩
    by_cases hu : u = .client i
    · subst hu; rw [upd_same, hi]; rfl
    · rw [upd_other _ _ hu]
  may_send _ _ := trivial
  g_send := by
    intro g sh i t h hw hm
    refine ⟨(scheme4 S U.toSettingUnit).g_send h.1 hw hm, echoInv_quiet h.2 rfl rfl fun u => ?_⟩
    by_cases hu : u = .worker
    · subst hu; rw [upd_same, hw]; rfl
    · rw [upd_other _ _ hu]
      by_cases hu' : u = .client i
      · subst hu'; rw [upd_same]; rfl
      · rw [upd_other _ _ hu']
  may_answer _ := trivial
  may_recv h hm _ := may1_recv h.1.1 hm
  g_recv := by
    intro g sh i b h hm hr
    refine ⟨(scheme4 S U.toSettingUnit).g_recv h.1 hm hr, ?_⟩
    refine echoInv_quiet (x := (.client i, .recvFlushed b))
      (echoInv_quiet (x := (.worker, .sendFlushed b)) (g' := g)
        (sh' := { sh with trace := sh.trace ++ [(.worker, .sendFlushed b)] }) h.2 rfl rfl fun _ => rfl)
      ?_ rfl fun u => ?_
    · simp
    · by_cases hu : u = .worker
      · subst hu; rw [upd_same]; rfl
      · rw [upd_other _ _ hu]
        by_cases hu' : u = .client i
        · subst hu'; rw [upd_same]; rfl
        · rw [upd_other _ _ hu']

theorem inv6 {S : Setup σ} (hcmd : cmd ≠ requestCode id) (U : ReportUnit cmd id shows S.line S.env)
    {w : World σ} {s : Sys σ} (h : Reachable S (Sys.initial w) s) :
    ∃ g, (scheme6 S hcmd U).Inv g s := by
  refine (scheme6 S hcmd U).sound ⟨⟨glob1_start w _ rfl fun _ => rfl, ?_, ?_⟩, ?_, ?_, ?_⟩ h
  · intro evs t c d r he
    simp [lineEvents] at he
  · rintro t d pre rest ⟨r, mid, e, q, post, h1, -⟩
    simp at h1
  · intro u; trivial
  · rintro tr post t d pre rest h0 ⟨r, mid, e, q, post', rfl, -⟩
    simp at h0
  · rintro t d pre rest ⟨r, mid, e, q, post, h1, -⟩
    simp at h1

/-! ## One's own refresh -/

theorem fst_stays (rest : List (Tid × Act)) (s : Option (CVal id × Int) × (Tid → Cur))
    (h : s.1 ≠ none) : (rest.foldl (scanAct id) s).1 ≠ none := by
  have := (scan_fst id rest s.1 s.2).2
  rw [show (s.1, s.2) = s from rfl] at this
  rw [this]
  cases hs : s.1 with
  | none => exact absurd hs h
  | some v => cases (rest.foldl (scanAct id) (none, s.2)).1 <;> simp

/-- Where a goroutine is depends only on what it did. -/
theorem cur_own (id : CacheId) (t : Tid) (tr : List (Tid × Act))
    (s : Option (CVal id × Int) × (Tid → Cur)) :
    (tr.foldl (scanAct id) s).2 t =
      ((actsOf t tr).filterMap evOf).foldl (fun c ev => (scanEv id (none, c) ev).2) (s.2 t) := by
  induction tr generalizing s with
  | nil => rfl
  | cons x tr ih =>
    obtain ⟨u, a⟩ := x
    rw [List.foldl_cons, ih]
    by_cases hu : u = t
    · subst hu
      have e : actsOf u ((u, a) :: tr) = a :: actsOf u tr := by simp [actsOf]
      rw [e]
      cases he : evOf a with
      | none =>
        rw [List.filterMap_cons_none he]
        have : scanAct id s (u, a) = s := by simp [scanAct, he]
        rw [this]
      | some ev =>
        rw [List.filterMap_cons_some he, List.foldl_cons, (scanAct_at s he).2,
          scanEv_snd id s.1 none]
    · have e : actsOf t ((u, a) :: tr) = actsOf t tr := by simp [actsOf, hu]
      rw [e, scanAct_off _ (Ne.symm hu)]

end Comfo
