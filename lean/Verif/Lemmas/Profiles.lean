import Verif.Lemmas.Interleave
import Verif.Spec.Unit
/-! Helper lemmas: who has changed the fan profiles of the unit (C28). -/
namespace Comfo
open Spec
open scoped List

/-- A change made by a client: its number and the change. -/
abbrev Edit := Nat × Change

def applyEdits (order : List Edit) (p : List UInt8) : List UInt8 := applyAll (order.map (·.2)) p

/-- The change the goroutine is there for. -/
def G1.Asks (g : G1) : Change → Prop
  | .mode m v => ∃ m', g.job = some (m', v) ∧ m = m'.toNat
  | .all d => g.raw = some d

/-- Locks under which a query is remembered. -/
def Guards (held : List (Lock × Bool)) : Prop :=
  (.am, true) ∈ held ∨ ∃ id, (.cache id, true) ∈ held

variable {L : Line σ} {env : σ → σ → Prop}

structure Prof (U : ProfileUnit L env) (p0 : List UInt8) (order : List Edit) (g : Tid → G1)
    (sh : Shared σ) : Prop where
  workerJob : (g .worker).job = none ∧ (g .worker).raw = none
  recd : ∀ t, ((g t).recd = true ∨ (g t).done ≠ []) → Guards (g t).held
  nodup : (order.map (·.1)).Nodup
  edits : ∀ x ∈ order, (g (.client x.1)).Asks x.2 ∧ (g (.client x.1)).spent = true
  pct : U.pct sh.world.line = applyEdits order p0
  subl : (order.map fun x => Tid.client x.1) <+ setWriters sh.trace
  link : ∀ t bs r, (g t).tx = [.wrote bs r] → U.last sh.world.line = bs
  took : ∀ t bs r, (g t).tx = [.wrote bs r] → isCF bs = true → U.took sh.world.line = true →
    ∃ i ∈ order.map (·.1), t = .client i
  ok : ∀ t, (g t).cfOk = true → ∃ i ∈ order.map (·.1), t = .client i
  live : ∀ t r q rest fp, (g t).spent = false →
    (g t).tx = .wrote (frame 0xCD []) r :: .got true (q, none) :: rest → q.command = 0xCE →
    decode .profiles q.data = some fp → percentages fp = U.pct sh.world.line
  fresh : ∀ t q fp, (.am, true) ∈ (g t).held → (g t).spent = false →
    Transaction 0xCD [] true (g t).done (q, none) → decode .profiles q.data = some fp →
    percentages fp = U.pct sh.world.line

theorem asks_congr {x y : G1} (h1 : x.job = y.job) (h2 : x.raw = y.raw) {c : Change} :
    x.Asks c ↔ y.Asks c := by cases c <;> simp [G1.Asks, h1, h2]

theorem setWriters_append (a b : List (Tid × Act)) :
    setWriters (a ++ b) = setWriters a ++ setWriters b := by simp [setWriters]

theorem no_transaction {cmd : UInt8} {d : List UInt8} {e : Bool} {r : Packet × Option Err} :
    ¬ Transaction cmd d e [] r := by
  intro h; cases h

/-- Steps that do not touch the line. -/
theorem prof_quiet {U : ProfileUnit L env} {p0 : List UInt8} {order : List Edit} {g : Tid → G1}
    {sh sh' : Shared σ} {t : Tid} {x : G1} (h : Prof U p0 order g sh)
    (hl : sh'.world.line = sh.world.line) (hw : setWriters sh.trace <+ setWriters sh'.trace)
    (job : (x.job = (g t).job ∧ x.raw = (g t).raw) ∨ ((g t).spent = false ∧ t ≠ .worker))
    (spent : x.spent = (g t).spent)
    (cfOk : x.cfOk = (g t).cfOk)
    (recd : (x.recd = true ∨ x.done ≠ []) → Guards x.held)
    (htx : x.tx = (g t).tx ∨ x.tx = [])
    (fresh : ∀ q fp, (.am, true) ∈ x.held → x.spent = false →
      Transaction 0xCD [] true x.done (q, none) → decode .profiles q.data = some fp →
      percentages fp = U.pct sh.world.line) : Prof U p0 order (upd g t x) sh' := by
  have cases_u : ∀ {P : G1 → Prop} (u : Tid), P x → P (g u) → P (upd g t x u) := by
    intro P u h1 h2
    by_cases e : u = t
    · subst e; rw [upd_same]; exact h1
    · rw [upd_other _ _ e]; exact h2
  have same : ∀ {α : Type} (f : G1 → α) (u : Tid), f x = f (g t) → f (upd g t x u) = f (g u) := by
    intro α f u h1
    by_cases e : u = t
    · subst e; rw [upd_same]; exact h1
    · rw [upd_other _ _ e]
  have txu : ∀ u ev evs, (upd g t x u).tx = ev :: evs → (g u).tx = ev :: evs := by
    intro u ev evs
    by_cases e : u = t
    · subst e
      rw [upd_same]
      rcases htx with e | e
      · rw [e]; exact id
      · rw [e]; intro h; cases h
    · rw [upd_other _ _ e]; exact id
  constructor
  · rcases job with ⟨job, raw⟩ | ⟨-, hne⟩
    · rw [same G1.job .worker job, same G1.raw .worker raw]; exact h.workerJob
    · rw [upd_other _ _ (Ne.symm hne)]; exact h.workerJob
  · intro u
    exact cases_u (P := fun x => (x.recd = true ∨ x.done ≠ []) → Guards x.held) u recd (h.recd u)
  · exact h.nodup
  · intro y hy
    rcases job with ⟨job, raw⟩ | ⟨hs, -⟩
    · rw [asks_congr (same G1.job _ job) (same G1.raw _ raw), same G1.spent _ spent]
      exact h.edits y hy
    · have hne : Tid.client y.1 ≠ t := by
        intro e
        have := (h.edits y hy).2
        rw [e, hs] at this; cases this
      rw [upd_other _ _ hne]; exact h.edits y hy
  · rw [hl]; exact h.pct
  · exact h.subl.trans hw
  · intro u bs r hu; rw [hl]; exact h.link u bs r (txu u _ _ hu)
  · intro u bs r hu; rw [hl]; exact h.took u bs r (txu u _ _ hu)
  · intro u; rw [same G1.cfOk u cfOk]; exact h.ok u
  · intro u r q rest fp; rw [same G1.spent u spent, hl]
    exact fun h1 h2 => h.live u r q rest fp h1 (txu u _ _ h2)
  · intro u q fp
    rw [hl]
    exact cases_u (P := fun x => (.am, true) ∈ x.held → x.spent = false →
      Transaction 0xCD [] true x.done (q, none) → decode .profiles q.data = some fp →
      percentages fp = U.pct sh.world.line) u (fresh q fp) (h.fresh u q fp)

theorem others_idle {g : Tid → G1} {sh : Shared σ} (hG : Glob1 g sh) {t u : Tid}
    (ht : (.pm, true) ∈ (g t).held) (hu : u ≠ t) : (g u).tx = [] := by
  cases htx : (g u).tx with
  | nil => rfl
  | cons e es =>
    have := hG.tx_pm u (by rw [htx]; simp)
    have := hG.excl _ ((hG.held_iff _ _ _).1 ht) _ ((hG.held_iff _ _ _).1 this) rfl rfl
    exact absurd (congrArg Held.tid this).symm hu

theorem isCF_of_frame {bs : List UInt8} (h : isCF bs = false) (d : List UInt8) :
    bs ≠ frame 0xCF d := by
  rintro rfl
  rw [isCF_frame] at h; cases h

theorem guards_mono {a b : List (Lock × Bool)} (h : Guards a) (hab : ∀ x ∈ a, x ∈ b) : Guards b :=
  h.imp (hab _) fun ⟨id, h⟩ => ⟨id, hab _ h⟩

theorem part_frame {bs : List UInt8} {r : Nat × Option Err} (h : PartOfQuery [.wrote bs r]) :
    ∃ c d, bs = frame c d := by
  obtain ⟨rest, cmd, d, e, r', ht⟩ := h
  refine ⟨cmd, d, ?_⟩
  generalize hx : [IoEv.wrote bs r] ++ rest = evs at ht
  cases ht <;> (simp only [List.singleton_append, List.cons.injEq, IoEv.wrote.injEq] at hx; exact hx.1.1)

theorem frame_ne_ack (c : UInt8) (d : List UInt8) : frame c d ≠ ack := by
  intro h
  have := congrArg List.length h
  simp [frame, body, ack] at this

/-- Two different commands are not written one after the other in one query. -/
theorem part_second {ev : IoEv} {evs : List IoEv} {bs : List UInt8} {r : Nat × Option Err}
    (h : PartOfQuery (ev :: evs ++ [.wrote bs r])) : bs = ack := by
  obtain ⟨rest, cmd, d, e, r', ht⟩ := h
  generalize hx : (ev :: evs ++ [IoEv.wrote bs r]) ++ rest = l at ht
  have key : ∀ a b c : IoEv, ev :: evs ++ [IoEv.wrote bs r] ++ rest = [a, b, c] →
      (∀ bs r, b = .wrote bs r → False) → ∀ bs' r', c = .wrote bs' r' → bs = bs' := by
    intro a b c h1 h2 bs' r' h3
    match evs, rest, h1 with
    | [], _, h1 =>
      simp only [List.cons_append, List.nil_append, List.cons.injEq] at h1
      exact absurd h1.2.1.symm (fun h => h2 _ _ h)
    | [x], [], h1 =>
      simp only [List.cons_append, List.nil_append, List.cons.injEq] at h1
      have := h1.2.2.1.trans h3
      cases this; rfl
    | [x], y :: ys, h1 => simp at h1
    | x :: y :: ys, _, h1 => simp at h1
  have key2 : ∀ a b : IoEv, ev :: evs ++ [IoEv.wrote bs r] ++ rest = [a, b] →
      (∀ bs r, b = .wrote bs r → False) → False := by
    intro a b h1 h2
    match evs, rest, h1 with
    | [], _, h1 =>
      simp only [List.cons_append, List.nil_append, List.cons.injEq] at h1
      exact h2 _ _ h1.2.1.symm
    | x :: xs, _, h1 => simp at h1
  cases ht with
  | writeFailed n e => simp at hx
  | readFailed n q e => exact (key2 _ _ hx (by simp)).elim
  | wrongReply n q => exact (key2 _ _ hx (by simp)).elim
  | ackFailed n q m e => exact key _ _ _ hx (by simp) _ _ rfl
  | ackShort n q m => exact key _ _ _ hx (by simp) _ _ rfl
  | complete n q => exact key _ _ _ hx (by simp) _ _ rfl

theorem prof_got {U : ProfileUnit L env} {p0 : List UInt8} {order : List Edit} {g : Tid → G1}
    {sh : Shared σ} {t : Tid} {e : Bool} {q : Packet} {err : Option Err} {line : σ}
    (hG : Glob1 g sh) (h : Prof U p0 order g sh) (hr : L.read e sh.world.line = (.ret q err, line))
    (hm : must1 (g t) (.got e (q, err))) :
    Prof U p0 order (upd g t (post1 (g t) (.got e (q, err))))
      { sh with world := { sh.world with line := line }.log (.got e (q, err)),
                trace := sh.trace ++ [(t, .got e (q, err))] } := by
  have hpct : U.pct line = U.pct sh.world.line := U.read_pct hr
  have idle : ∀ u, u ≠ t → (g u).tx = [] := fun u hu => others_idle hG hm.2.1 hu
  have first : ∃ bs r, (g t).tx = [.wrote bs r] := by
    obtain ⟨rest, cmd, d, e', r', ht⟩ := hm.2.2
    generalize hx : (g t).tx ++ [IoEv.got e (q, err)] ++ rest = l at ht
    match htx : (g t).tx with
    | [] => rw [htx] at hx; cases ht <;> simp at hx
    | [.wrote bs r] => exact ⟨bs, r, rfl⟩
    | [.got _ _] => rw [htx] at hx; cases ht <;> simp at hx
    | [.refresh _ _] => rw [htx] at hx; cases ht <;> simp at hx
    | [.answered _] => rw [htx] at hx; cases ht <;> simp at hx
    | a :: b :: l' =>
      rw [htx] at hx
      match l' with
      | [] => cases ht <;> simp at hx
      | _ :: _ => cases ht <;> simp at hx
  obtain ⟨bs, r, htx⟩ := first
  have same : ∀ {α : Type} (f : G1 → α) (u : Tid), f (post1 (g t) (.got e (q, err))) = f (g t) →
      f (upd g t (post1 (g t) (.got e (q, err))) u) = f (g u) := by
    intro α f u h1
    by_cases e : u = t
    · subst e; rw [upd_same]; exact h1
    · rw [upd_other _ _ e]
  constructor
  · rw [same G1.job .worker rfl, same G1.raw .worker rfl]; exact h.workerJob
  · intro u; rw [same G1.recd u rfl, same G1.done u rfl, same G1.held u rfl]; exact h.recd u
  · exact h.nodup
  · intro y hy; rw [asks_congr (same G1.job _ rfl) (same G1.raw _ rfl), same G1.spent _ rfl]; exact h.edits y hy
  · exact hpct.trans h.pct
  · refine h.subl.trans ?_
    rw [setWriters_append]; exact List.sublist_append_left _ _
  · intro u bs' r' hu
    by_cases e1 : u = t
    · subst e1; rw [upd_same] at hu; simp [post1, htx] at hu
    · rw [upd_other _ _ e1, idle u e1] at hu; cases hu
  · intro u bs' r' hu
    by_cases e1 : u = t
    · subst e1; rw [upd_same] at hu; simp [post1, htx] at hu
    · rw [upd_other _ _ e1, idle u e1] at hu; cases hu
  · intro u hu
    by_cases e1 : u = t
    · subst e1
      rw [upd_same] at hu
      simp only [post1, Bool.or_eq_true, Bool.and_eq_true] at hu
      rcases hu with hu | ⟨h1, h2⟩
      · exact h.ok u hu
      · rw [htx] at h1
        have hcf : isCF bs = true := h1
        obtain ⟨rest, cmd, d, e', r', ht⟩ := hG.tx_part u
        rw [htx] at ht
        obtain ⟨c, d, hbs⟩ := part_frame ⟨rest, cmd, d, e', r', ht⟩
        have hc : c = 0xCF := by rw [hbs, isCF_frame] at hcf; simpa using hcf
        subst hc
        have herr : err = none := by cases err <;> simp_all
        subst herr
        exact h.took u bs r htx hcf (U.read_ack hr ((h.link u bs r htx).trans hbs))
    · rw [upd_other _ _ e1] at hu; exact h.ok u hu
  · intro u r' q' rest fp hs htx' hq hd
    by_cases e1 : u = t
    · subst e1
      rw [upd_same] at htx'
      simp only [post1, htx, List.cons_append, List.nil_append, List.cons.injEq, IoEv.wrote.injEq,
        IoEv.got.injEq, Prod.mk.injEq] at htx'
      obtain ⟨⟨hbs, -⟩, ⟨he, hq', herr⟩, -⟩ := htx'
      subst he hq' herr
      show percentages fp = U.pct line
      rw [hpct]
      exact U.read_reply hr ((h.link u bs r htx).trans hbs) hq hd
    · rw [upd_other _ _ e1, idle u e1] at htx'; cases htx'
  · intro u q' fp
    rw [same G1.held u rfl, same G1.spent u rfl, same G1.done u rfl]
    show _ → _ → _ → _ → percentages fp = U.pct line
    rw [hpct]
    exact h.fresh u q' fp

theorem prof_wrote {U : ProfileUnit L env} {p0 : List UInt8} {order : List Edit} {g : Tid → G1}
    {sh : Shared σ} {t : Tid} {bs : List UInt8} {r : Nat × Option Err} {line : σ}
    (hG : Glob1 g sh) (h : Prof U p0 order g sh) (hr : L.write bs sh.world.line = (r, line))
    (hm : must1 (g t) (.wrote bs r))
    (hno : isCF bs = true → ∀ u, (.am, true) ∈ (g u).held → u = t) :
    ∃ order', Prof U p0 order' (upd g t (post1 (g t) (.wrote bs r)))
      { sh with world := { sh.world with line := line }.log (.wrote bs r),
                trace := sh.trace ++ [(t, .wrote bs r)] } := by
  have idle : ∀ u, u ≠ t → (g u).tx = [] := fun u hu => others_idle hG hm.2.1 hu
  have same : ∀ {α : Type} (f : G1 → α) (u : Tid), f (post1 (g t) (.wrote bs r)) = f (g t) →
      f (upd g t (post1 (g t) (.wrote bs r)) u) = f (g u) := by
    intro α f u h1
    by_cases e : u = t
    · subst e; rw [upd_same]; exact h1
    · rw [upd_other _ _ e]
  -- a single write in `tx` is this one
  have single : ∀ u bs' r', (upd g t (post1 (g t) (.wrote bs r)) u).tx = [.wrote bs' r'] →
      u = t ∧ bs' = bs ∧ (g t).tx = [] := by
    intro u bs' r' hu
    by_cases e1 : u = t
    · subst e1
      rw [upd_same] at hu
      simp only [post1] at hu
      match htx : (g u).tx with
      | [] => rw [htx] at hu; simp at hu; exact ⟨rfl, hu.1.symm, rfl⟩
      | _ :: _ => rw [htx] at hu; simp at hu
    · rw [upd_other _ _ e1, idle u e1] at hu; cases hu
  have hlast : ∀ u bs' r', (upd g t (post1 (g t) (.wrote bs r)) u).tx = [.wrote bs' r'] →
      U.last line = bs' := by
    intro u bs' r' hu
    obtain ⟨-, rfl, htx⟩ := single u bs' r' hu
    obtain ⟨c, d, hbs⟩ := part_frame (by have := hm.2.2.1; rwa [htx] at this)
    exact U.write_last hr (by rw [hbs]; exact frame_ne_ack c d)
  cases hcf : isCF bs with
  | false =>
    have hpct : U.pct line = U.pct sh.world.line := U.write_other hr (isCF_of_frame hcf)
    have hsp : (post1 (g t) (.wrote bs r)).spent = (g t).spent := by simp [post1, hcf]
    refine ⟨order, ?_⟩
    constructor
    · rw [same G1.job .worker rfl, same G1.raw .worker rfl]; exact h.workerJob
    · intro u; rw [same G1.recd u rfl, same G1.done u rfl, same G1.held u rfl]; exact h.recd u
    · exact h.nodup
    · intro y hy; rw [asks_congr (same G1.job _ rfl) (same G1.raw _ rfl), same G1.spent _ hsp]; exact h.edits y hy
    · exact hpct.trans h.pct
    · refine h.subl.trans ?_
      rw [setWriters_append]; exact List.sublist_append_left _ _
    · exact hlast
    · intro u bs' r' hu hcf'
      obtain ⟨-, rfl, -⟩ := single u bs' r' hu
      rw [hcf] at hcf'; cases hcf'
    · intro u; rw [same G1.cfOk u rfl]; exact h.ok u
    · intro u r' q rest fp
      rw [same G1.spent u hsp]
      show _ → _ → _ → _ → percentages fp = U.pct line
      rw [hpct]
      intro h1 h2
      by_cases e1 : u = t
      · subst e1
        rw [upd_same] at h2
        simp only [post1] at h2
        match htx : (g u).tx with
        | [] => rw [htx] at h2; simp at h2
        | [a] => rw [htx] at h2; simp at h2
        | a :: b :: l =>
          rw [htx] at h2
          simp only [List.cons_append, List.cons.injEq] at h2
          obtain ⟨rfl, rfl, -⟩ := h2
          exact h.live u r' q l fp h1 htx
      · rw [upd_other _ _ e1, idle u e1] at h2; cases h2
    · intro u q' fp
      rw [same G1.held u rfl, same G1.spent u hsp, same G1.done u rfl]
      show _ → _ → _ → _ → percentages fp = U.pct line
      rw [hpct]
      exact h.fresh u q' fp
  | true =>
    -- what is sent is the change the goroutine is there for, applied to what the unit holds
    obtain ⟨ch, hasks, hspent, hbs⟩ : ∃ ch, (g t).Asks ch ∧ (g t).spent = false ∧
        bs = frame 0xCF (ch.apply (U.pct sh.world.line)) := by
      rcases hm.2.2.2 hcf with ⟨d, hraw, hspent, hbs⟩ | ⟨m, s, q, fp, hjob, hspent, ham, htr, hdec, hbs⟩
      · exact ⟨.all d, hraw, hspent, hbs⟩
      · refine ⟨.mode m.toNat s, ⟨m, hjob, rfl⟩, hspent, ?_⟩
        rw [hbs, h.fresh _ q fp ham hspent htr hdec]; rfl
    obtain ⟨i, rfl⟩ : ∃ i, t = .client i := by
      cases t with
      | client i => exact ⟨i, rfl⟩
      | worker =>
        cases ch with
        | mode m v => obtain ⟨_, h1, -⟩ := hasks; rw [h.workerJob.1] at h1; cases h1
        | all d => have h1 : _ = some d := hasks; rw [h.workerJob.2] at h1; cases h1
    have hfresh : i ∉ order.map (·.1) := by
      intro hi
      obtain ⟨x, hx, rfl⟩ := List.mem_map.mp hi
      have := (h.edits x hx).2
      rw [hspent] at this; cases this
    have hsp : (post1 (g (.client i)) (.wrote bs r)).spent = true := by simp [post1, hcf]
    have hwr : setWriters (sh.trace ++ [(.client i, .wrote bs r)]) =
        setWriters sh.trace ++ [.client i] := by
      rw [setWriters_append]
      congr 1
      rw [hbs]; simp [setWriters, frame, body]
    have hamu : ∀ u, u ≠ Tid.client i → (.am, true) ∉ (g u).held := by
      intro u hu h1
      exact hu (hno hcf u h1)
    -- what holds whether or not the unit carries the command out
    have common : ∀ order' : List Edit, (order'.map (·.1)).Nodup →
        (∀ x ∈ order', x ∈ order ∨ x = (i, ch)) → (∀ x ∈ order, x ∈ order') →
        U.pct line = applyEdits order' p0 →
        (order'.map fun x => Tid.client x.1) <+ setWriters sh.trace ++ [.client i] →
        (U.took line = true → i ∈ order'.map (·.1)) →
        Prof U p0 order' (upd g (.client i) (post1 (g (.client i)) (.wrote bs r)))
          { sh with world := { sh.world with line := line }.log (.wrote bs r),
                    trace := sh.trace ++ [(.client i, .wrote bs r)] } := by
      intro order' h1 h2 h3 h4 h5 h6
      constructor
      · rw [same G1.job .worker rfl, same G1.raw .worker rfl]; exact h.workerJob
      · intro u; rw [same G1.recd u rfl, same G1.done u rfl, same G1.held u rfl]; exact h.recd u
      · exact h1
      · intro y hy
        rw [asks_congr (same G1.job _ rfl) (same G1.raw _ rfl)]
        rcases h2 y hy with hy | rfl
        · refine ⟨(h.edits y hy).1, ?_⟩
          by_cases e1 : Tid.client y.1 = .client i
          · rw [e1, upd_same]; exact hsp
          · rw [upd_other _ _ e1]; exact (h.edits y hy).2
        · exact ⟨hasks, by rw [upd_same]; exact hsp⟩
      · exact h4
      · show _ <+ setWriters (sh.trace ++ _)
        rw [hwr]; exact h5
      · exact hlast
      · intro u bs' r' hu _ ht
        obtain ⟨rfl, -, -⟩ := single u bs' r' hu
        exact ⟨i, h6 ht, rfl⟩
      · intro u hu
        rw [same G1.cfOk u rfl] at hu
        obtain ⟨j, hj, e⟩ := h.ok u hu
        obtain ⟨x, hx, rfl⟩ := List.mem_map.mp hj
        exact ⟨_, List.mem_map_of_mem (h3 x hx), e⟩
      · intro u r' q rest fp hs2 htx
        by_cases e1 : u = .client i
        · subst e1; rw [upd_same, hsp] at hs2; cases hs2
        · rw [upd_other _ _ e1, idle u e1] at htx; cases htx
      · intro u q' fp' ham' hs2
        by_cases e1 : u = .client i
        · subst e1; rw [upd_same, hsp] at hs2; cases hs2
        · rw [upd_other _ _ e1] at ham'; exact absurd ham' (hamu u e1)
    rcases U.write_set (hbs ▸ hr) with ⟨hp, ht⟩ | ⟨hp, ht⟩
    · refine ⟨order ++ [(i, ch)], common _ ?_ ?_ ?_ ?_ ?_ ?_⟩
      · rw [List.map_append, List.nodup_append]
        exact ⟨h.nodup, by simp, fun a ha b hb => by
          simp at hb; subst hb; rintro rfl; exact hfresh ha⟩
      · intro x hx; simpa using hx
      · intro x hx; simp [hx]
      · rw [hp, h.pct]; simp [applyEdits, applyAll]
      · rw [List.map_append]; exact List.Sublist.append h.subl (List.Sublist.refl _)
      · simp
    · refine ⟨order, common _ h.nodup (fun x hx => .inl hx) (fun x hx => hx) (hp.trans h.pct)
        (h.subl.trans (List.sublist_append_left _ _)) ?_⟩
      intro h'; rw [ht] at h'; cases h'

theorem complete_shape {q : Packet} {evs : List IoEv}
    (h : Transaction 0xCD [] true evs (q, none)) :
    ∃ r rest, evs = .wrote (frame 0xCD []) r :: .got true (q, none) :: rest ∧ q.command = 0xCE := by
  generalize hr : ((q, none) : Packet × Option Err) = res at h
  cases h <;> cases hr <;> simp_all

theorem prof_act {U : ProfileUnit L env} {p0 : List UInt8} {order : List Edit} {g : Tid → G1}
    {t : Tid} {a : Act} {sh sh' : Shared σ} (hG : Glob1 g sh) (h : Prof U p0 order g sh)
    (ha : Acts L t a sh sh') (hm : must1 (g t) a)
    (hno : ∀ bs r, a = .wrote bs r → isCF bs = true → ∀ u, (.am, true) ∈ (g u).held → u = t) :
    ∃ order', Prof U p0 order' (upd g t (post1 (g t) a)) sh' := by
  have hw : ∀ b, setWriters sh.trace <+ setWriters (sh.trace ++ b) := by
    intro b; rw [setWriters_append]; exact List.sublist_append_left _ _
  cases ha with
  | wrote hr => exact prof_wrote hG h hr hm (hno _ _ rfl)
  | got hr => exact ⟨order, prof_got hG h hr hm⟩
  | @lock l _ hl =>
    refine ⟨order, prof_quiet h rfl (hw _) (.inl ⟨rfl, rfl⟩) rfl rfl ?_ (.inl rfl) ?_⟩
    · intro hx
      by_cases e : l = .am
      · subst e; exact .inl (by simp [post1, G1.push])
      · have : (g t).recd = true ∨ (g t).done ≠ [] := by
          simpa [post1, G1.push, e] using hx
        exact guards_mono (h.recd t this) fun _ hx => List.mem_cons_of_mem _ hx
    · intro q fp h1 h2 h3 h4
      by_cases e : l = .am
      · subst e
        have hd : (g t).done = [] := by
          refine Classical.byContradiction fun hn => ?_
          rcases h.recd t (.inr hn) with hx | ⟨id, hx⟩
          · exact free_not_mem hm.2 hx
          · exact absurd (hm.2 _ hx) (by simp [Lock.rank])
        have h3' : Transaction 0xCD [] true (g t).done (q, none) := h3
        rw [hd] at h3'
        exact absurd h3' no_transaction
      · have : (.am, true) ∈ (g t).held := by
          rcases List.mem_cons.mp h1 with h1 | h1
          · cases h1; exact absurd rfl e
          · exact h1
        exact h.fresh t q fp this h2 h3 h4
  | @rlock l _ hl =>
    refine ⟨order, prof_quiet h rfl (hw _) (.inl ⟨rfl, rfl⟩) rfl rfl ?_ (.inl rfl) ?_⟩
    · intro hx
      exact guards_mono (h.recd t hx) fun _ hx => List.mem_cons_of_mem _ hx
    · intro q fp h1 h2 h3 h4
      have : (.am, true) ∈ (g t).held := by
        rcases List.mem_cons.mp h1 with h1 | h1
        · cases h1
        · exact h1
      exact h.fresh t q fp this h2 h3 h4
  | @unlock l _ hl =>
    by_cases e : l = .pm
    · subst e
      have hp : post1 (g t) (.unlock .pm) = { g t with
          held := (g t).held.filter (· ≠ (.pm, true)), tx := []
          done := if (g t).recd then (g t).tx else (g t).done } := by simp [post1]
      rw [hp]
      refine ⟨order, prof_quiet h rfl (hw _) (.inl ⟨rfl, rfl⟩) rfl rfl ?_ (.inr rfl) ?_⟩
      · intro hx
        have hx' : (g t).recd = true ∨ (g t).done ≠ [] := by
          rcases hx with hx | hx
          · exact .inl hx
          · cases hr : (g t).recd with
            | true => exact .inl rfl
            | false => refine .inr ?_; simpa [hr] using hx
        rcases h.recd t hx' with hx | ⟨id, hx⟩
        · exact .inl (List.mem_filter.mpr ⟨hx, by simp⟩)
        · exact .inr ⟨id, List.mem_filter.mpr ⟨hx, by simp⟩⟩
      · intro q fp h1 h2 h3 h4
        have h1' : (.am, true) ∈ (g t).held := (List.mem_filter.mp h1).1
        cases hr : (g t).recd with
        | false =>
          have h3' : Transaction 0xCD [] true (g t).done (q, none) := by simpa [hr] using h3
          exact h.fresh t q fp h1' h2 h3' h4
        | true =>
          have h3' : Transaction 0xCD [] true (g t).tx (q, none) := by simpa [hr] using h3
          obtain ⟨r, rest, hs, hq⟩ := complete_shape h3'
          exact h.live t r q rest fp h2 hs hq h4
    · have hp : post1 (g t) (.unlock l) = { g t with
          held := (g t).held.filter (· ≠ (l, true)), recd := false, done := [], ref := none } := by
        simp [post1, e]
      rw [hp]
      refine ⟨order, prof_quiet h rfl (hw _) (.inl ⟨rfl, rfl⟩) rfl rfl (by simp) (.inl rfl) ?_⟩
      intro q fp h1 h2 h3 h4
      exact absurd h3 no_transaction
  | @runlock l _ hl =>
    refine ⟨order, prof_quiet h rfl (hw _) (.inl ⟨rfl, rfl⟩) rfl rfl ?_ (.inl rfl) ?_⟩
    · intro hx
      rcases h.recd t hx with hx | ⟨id, hx⟩
      · exact .inl (List.mem_filter.mpr ⟨hx, by simp⟩)
      · exact .inr ⟨id, List.mem_filter.mpr ⟨hx, by simp⟩⟩
    · intro q fp h1 h2 h3 h4
      exact h.fresh t q fp (List.mem_filter.mp h1).1 h2 h3 h4
  | now =>
    exact ⟨order, prof_quiet h rfl (hw _) (.inl ⟨rfl, rfl⟩) rfl rfl (h.recd t) (.inl rfl) (h.fresh t)⟩
  | sleep =>
    exact ⟨order, prof_quiet h rfl (hw _) (.inl ⟨rfl, rfl⟩) rfl rfl (h.recd t) (.inl rfl) (h.fresh t)⟩
  | load =>
    exact ⟨order, prof_quiet h rfl (hw _) (.inl ⟨rfl, rfl⟩) rfl rfl (h.recd t) (.inl rfl) (h.fresh t)⟩
  | @store _ id e =>
    refine ⟨order, prof_quiet h ?_ (hw _) (.inl ⟨rfl, rfl⟩) rfl rfl ?_ (.inl rfl) ?_⟩
    · cases id <;> rfl
    · intro _; exact .inr ⟨id, hm.2.1⟩
    · intro q fp h1 h2 h3 h4
      exact absurd h3 no_transaction
  | @note _ id ts =>
    refine ⟨order, prof_quiet h rfl (hw _) (.inl ⟨rfl, rfl⟩) rfl rfl ?_ (.inl rfl) ?_⟩
    · intro _; exact .inr ⟨id, hm.2.1⟩
    · intro q fp h1 h2 h3 h4
      exact absurd h3 no_transaction

/-! ## Who holds `am` -/

theorem amHolder_snoc (tr : List (Tid × Act)) (t : Tid) (a : Act) :
    amHolder (tr ++ [(t, a)]) =
      match a with
      | .lock .am => some t
      | .unlock .am => none
      | _ => amHolder tr := by
  unfold amHolder
  rw [List.foldl_append]
  cases a with
  | lock l => cases l <;> rfl
  | unlock l => cases l <;> rfl
  | _ => rfl

def AmInv (g : Tid → G1) (sh : Shared σ) : Prop :=
  ∀ t, amHolder sh.trace = some t ↔ (.am, true) ∈ (g t).held

theorem amInv_same {g : Tid → G1} {sh sh' : Shared σ} {t : Tid} {x : G1} (h : AmInv g sh)
    (ht : amHolder sh'.trace = amHolder sh.trace)
    (hx : (.am, true) ∈ x.held ↔ (.am, true) ∈ (g t).held) : AmInv (upd g t x) sh' := by
  intro u
  rw [ht, h u]
  by_cases e : u = t
  · subst e; rw [upd_same]; exact hx.symm
  · rw [upd_other _ _ e]

theorem am_act {g : Tid → G1} {t : Tid} {a : Act} {sh sh' : Shared σ} (hG : Glob1 g sh)
    (h : AmInv g sh) (ha : Acts L t a sh sh') : AmInv (upd g t (post1 (g t) a)) sh' := by
  have ht := acts_trace ha
  cases ha with
  | @lock l _ hl =>
    by_cases e : l = .am
    · subst e
      intro u
      simp only [amHolder_snoc, Option.some.injEq]
      by_cases e : u = t
      · subst e; rw [upd_same]; simp [post1, G1.push]
      · rw [upd_other _ _ e]
        constructor
        · intro h1; exact absurd h1.symm e
        · intro h1; exact absurd rfl (hl _ ((hG.held_iff _ _ _).1 h1))
    · refine amInv_same h ?_ ?_
      · simp only [amHolder_snoc]; cases l <;> first | rfl | exact absurd rfl e
      · simp [post1, G1.push, Ne.symm e]
  | @unlock l _ hl =>
    by_cases e : l = .am
    · subst e
      intro u
      simp only [amHolder_snoc]
      by_cases e : u = t
      · subst e; rw [upd_same]; simp [post1]
      · rw [upd_other _ _ e]
        constructor
        · intro h1; cases h1
        · intro h1
          have := hG.excl _ ((hG.held_iff _ _ _).1 h1) _ hl rfl rfl
          exact absurd (congrArg Held.tid this) e
    · refine amInv_same h ?_ ?_
      · simp only [amHolder_snoc]; cases l <;> first | rfl | exact absurd rfl e
      · simp only [post1]
        split <;> simp [List.mem_filter, Ne.symm e]
  | rlock hl => exact amInv_same h (by simp only [amHolder_snoc]) (by simp [post1, G1.push])
  | runlock hl => exact amInv_same h (by simp only [amHolder_snoc]) (by simp [post1])
  | _ => exact amInv_same h (by simp only [amHolder_snoc]) Iff.rfl

theorem noOverlap_left {a b : List (Tid × Act)} (h : NoOverlap (a ++ b)) : NoOverlap a := by
  rintro pre t bs r post rfl
  exact h pre t bs r (post ++ b) (by simp)

theorem isCF_of_take {bs : List UInt8} (h : bs.take 4 = [0x07, 0xF0, 0x00, 0xCF]) :
    isCF bs = true := by
  match bs, h with
  | a :: b :: c :: d :: rest, h => simp at h; simp [isCF, h]

theorem noOverlap_snoc {tr : List (Tid × Act)} {t : Tid} {a : Act} (h : NoOverlap tr)
    (ha : ∀ bs r, a = .wrote bs r → isCF bs = true → ∀ u, amHolder tr = some u → u = t) :
    NoOverlap (tr ++ [(t, a)]) := by
  intro pre u bs r post he hb
  rcases List.eq_nil_or_concat post with rfl | ⟨post', x, rfl⟩
  · obtain ⟨rfl, h2⟩ := List.append_inj' he rfl
    simp only [List.cons.injEq, Prod.mk.injEq, and_true] at h2
    obtain ⟨rfl, rfl⟩ := h2
    exact ha bs r rfl (isCF_of_take hb)
  · have he' : tr ++ [(t, a)] = (pre ++ (u, .wrote bs r) :: post') ++ [x] := by simpa using he
    exact h pre u bs r post' (List.append_inj' he' rfl).1 hb

/-- Nobody else is in the middle of a change when a fan-profile command is written. -/
theorem noOverlap_last {tr : List (Tid × Act)} {t : Tid} {bs : List UInt8} {r : Nat × Option Err}
    (h : NoOverlap (tr ++ [(t, .wrote bs r)])) (hb : bs.take 4 = [0x07, 0xF0, 0x00, 0xCF]) :
    ∀ u, amHolder tr = some u → u = t := h tr t bs r [] rfl hb

/-! ## The invariant -/

structure Glob2 (S : Setup σ) (U : ProfileUnit S.line S.env) (p0 : List UInt8) (g : Tid → G1)
    (sh : Shared σ) : Prop where
  base : Glob1 g sh
  am : AmInv g sh
  calm : (∀ c, S.calls c → ¬ overwrites c) → (∀ t, (g t).raw = none) ∧ NoOverlap sh.trace
  prof : NoOverlap sh.trace → ∃ order, Prof U p0 order g sh

theorem post_raw (g : G1) (a : Act) : (post1 g a).raw = g.raw := by
  cases a <;> first | rfl | (simp only [post1]; split <;> rfl)

theorem raw_upd {g : Tid → G1} {t : Tid} {x : G1} (h : ∀ t, (g t).raw = none)
    (hx : x.raw = none) (u : Tid) : (upd g t x u).raw = none := by
  by_cases e : u = t
  · subst e; rw [upd_same]; exact hx
  · rw [upd_other _ _ e]; exact h u

theorem sends_frame {g : G1} {bs : List UInt8} (h : g.Sends bs) :
    bs.take 4 = [0x07, 0xF0, 0x00, 0xCF] := by
  rcases h with ⟨d, -, -, rfl⟩ | ⟨_, _, _, _, -, -, -, -, -, rfl⟩ <;> rfl

theorem glob2_act {S : Setup σ} {U : ProfileUnit S.line S.env} {p0 : List UInt8} {g : Tid → G1}
    {t : Tid} {a : Act} {sh sh' : Shared σ} (h : Glob2 S U p0 g sh) (ha : Acts S.line t a sh sh')
    (hm : must1 (g t) a) : Glob2 S U p0 (upd g t (post1 (g t) a)) sh' where
  base := glob1_act h.base ha hm
  am := am_act h.base h.am ha
  calm hS := by
    obtain ⟨h1, h2⟩ := h.calm hS
    refine ⟨raw_upd h1 (by rw [post_raw]; exact h1 t), ?_⟩
    rw [acts_trace ha]
    refine noOverlap_snoc h2 ?_
    rintro bs r rfl hcf u hu
    rcases hm.2.2.2 hcf with ⟨d, hd, -⟩ | ⟨_, _, _, _, -, -, ham, -⟩
    · rw [h1 t] at hd; cases hd
    · rw [(h.am t).2 ham] at hu; cases hu; rfl
  prof hno := by
    rw [acts_trace ha] at hno
    obtain ⟨order, ho⟩ := h.prof (noOverlap_left hno)
    refine prof_act h.base ho ha hm ?_
    rintro bs r rfl hcf u hu
    exact noOverlap_last hno (sends_frame (hm.2.2.2 hcf)) u ((h.am u).2 hu)

theorem noOverlap_flush {tr : List (Tid × Act)} {ext : List (Tid × Act)} (h : NoOverlap tr)
    (he : ∀ x ∈ ext, ∀ bs r, x.2 ≠ .wrote bs r) : NoOverlap (tr ++ ext) := by
  induction ext generalizing tr with
  | nil => simpa using h
  | cons x ext ih =>
    rw [show tr ++ x :: ext = (tr ++ [x]) ++ ext by simp]
    refine ih (noOverlap_snoc h ?_) fun y hy => he y (List.mem_cons_of_mem _ hy)
    intro bs r e
    exact absurd e (he x List.mem_cons_self bs r)

/-- The rules, with the history of the fan profiles. -/
def scheme2 (S : Setup σ) (U : ProfileUnit S.line S.env) (p0 : List UInt8) : Scheme S G1 where
  R := R1
  Q := Returns
  unborn := {}
  born := born1
  idle := idle1
  flushing := flushing1
  K := K1
  k_born c := ⟨rfl, rfl, rfl⟩
  k_post := k1_post
  G := Glob2 S U p0
  ok_call := (scheme1 S).ok_call
  ok_tick := (scheme1 S).ok_tick
  ok_flush := (scheme1 S).ok_flush
  may_act _ ha := may1_act ha
  g_act := glob2_act
  g_env := by
    intro g sh line ns h he
    obtain ⟨e1, e2, e3⟩ := U.env_same he
    refine ⟨(scheme1 S).g_env h.base he, h.am, h.calm, fun hno => ?_⟩
    obtain ⟨order, h2⟩ := h.prof hno
    exact ⟨order, h2.workerJob, h2.recd, h2.nodup, h2.edits, e1.trans h2.pct, h2.subl,
      fun t bs r ht => e2.trans (h2.link t bs r ht),
      fun t bs r ht hc hk => h2.took t bs r ht hc (e3 ▸ hk), h2.ok,
      fun t r q rest fp a b c d => (h2.live t r q rest fp a b c d).trans e1.symm,
      fun t q fp a b c d => (h2.fresh t q fp a b c d).trans e1.symm⟩
  g_born := by
    intro g sh c i h hc hi
    refine ⟨glob1_born h.base hi, amInv_same h.am rfl (by rw [hi]; rfl), fun hS => ?_,
      fun hno => ?_⟩
    · refine ⟨raw_upd (h.calm hS).1 ?_, (h.calm hS).2⟩
      have := hS c hc
      cases c <;> simp_all [overwrites, change, born1, Call.sendsRaw]
    · obtain ⟨order, h2⟩ := h.prof hno
      refine ⟨order, prof_quiet h2 rfl (List.Sublist.refl _) (.inr ?_) ?_ ?_ ?_ (.inr rfl) ?_⟩
      · rw [hi]; exact ⟨rfl, by simp⟩
      · rw [hi]; rfl
      · rw [hi]; rfl
      · simp [born1]
      · intro q fp h1 h2 h3 h4
        exact absurd h3 no_transaction
  may_send _ _ := trivial
  g_send := by
    intro g sh i t h hw hm
    have hw' : upd g (.client i) (R1.post (g (.client i)) (.sendFlush t)) .worker = idle1 := by
      rw [upd_other _ _ (by simp)]; exact hw
    refine ⟨glob1_send h.base hw hm, ?_, fun hS => ?_, fun hno => ?_⟩
    · exact amInv_same (sh := { sh with trace := sh.trace ++ [(.client i, .sendFlush t)] })
        (amInv_same h.am (amHolder_snoc _ _ _) Iff.rfl) rfl (by rw [hw']; rfl)
    · obtain ⟨h1, h2⟩ := h.calm hS
      exact ⟨raw_upd (raw_upd h1 (h1 _)) rfl, noOverlap_flush h2 (by simp)⟩
    · obtain ⟨order, h2⟩ := h.prof (noOverlap_left hno)
      have h3 : Prof U p0 order (upd g (.client i) (post1 (g (.client i)) (.sendFlush t)))
          { sh with trace := sh.trace ++ [(.client i, .sendFlush t)] } :=
        prof_quiet h2 rfl (by rw [setWriters_append]; exact List.sublist_append_left _ _)
          (.inl ⟨rfl, rfl⟩) rfl rfl (h2.recd _) (.inl rfl) (h2.fresh _)
      refine ⟨order, prof_quiet h3 rfl (List.Sublist.refl _) (.inl ?_) ?_ ?_ ?_ (.inr rfl) ?_⟩
      · rw [hw']; exact ⟨rfl, rfl⟩
      · rw [hw']; rfl
      · rw [hw']; rfl
      · simp [flushing1]
      · intro q fp h1 h2 h3 h4
        exact absurd h3 no_transaction
  may_answer _ := trivial
  may_recv h hm _ := may1_recv h.base hm
  g_recv := by
    intro g sh i b h hm hr
    have hw' : upd g (.client i) (post1 (g (.client i)) (.recvFlushed b)) .worker = g .worker :=
      upd_other _ _ (by simp)
    refine ⟨glob1_recv h.base hm hr, ?_, fun hS => ?_, fun hno => ?_⟩
    · refine amInv_same (sh := { sh with
          world := sh.world.log (.answered b)
          trace := sh.trace ++ [(.worker, .sendFlushed b), (.client i, .recvFlushed b)] })
        (amInv_same h.am ?_ Iff.rfl) rfl (by
          rw [upd_other _ _ (by simp)]; rfl)
      show amHolder (sh.trace ++ [(.worker, .sendFlushed b), (.client i, .recvFlushed b)]) = _
      rw [show sh.trace ++ [(Tid.worker, Act.sendFlushed b), (.client i, .recvFlushed b)] =
        (sh.trace ++ [(.worker, .sendFlushed b)]) ++ [(.client i, .recvFlushed b)] by simp,
        amHolder_snoc, amHolder_snoc]
    · obtain ⟨h1, h2⟩ := h.calm hS
      exact ⟨raw_upd (raw_upd h1 (h1 _)) (h1 .worker), noOverlap_flush h2 (by simp)⟩
    · obtain ⟨order, h2⟩ := h.prof (noOverlap_left hno)
      have h3 : Prof U p0 order (upd g (.client i) (post1 (g (.client i)) (.recvFlushed b)))
          { sh with
            world := sh.world.log (.answered b)
            trace := sh.trace ++ [(.worker, .sendFlushed b), (.client i, .recvFlushed b)] } :=
        prof_quiet h2 rfl (by rw [setWriters_append]; exact List.sublist_append_left _ _)
          (.inl ⟨rfl, rfl⟩) rfl rfl (h2.recd _) (.inl rfl) (h2.fresh _)
      have := prof_quiet (x := post1 (g .worker) (.sendFlushed b)) (t := .worker) h3 rfl
        (List.Sublist.refl _) (.inl (by rw [hw']; exact ⟨rfl, rfl⟩)) (by rw [hw']; rfl)
        (by rw [hw']; rfl) (h2.recd .worker) (.inl (by rw [hw']; rfl)) (h2.fresh .worker)
      exact ⟨order, this⟩

theorem prof_start {U : ProfileUnit L env} (w : World σ) (g : Tid → G1) (hw : g .worker = idle1)
    (hc : ∀ i, g (.client i) = {}) : Prof U (U.pct w.line) [] g ({ world := w } : Shared σ) := by
  have all : ∀ t, (g t).raw = none ∧ (g t).recd = false ∧ (g t).done = [] ∧ (g t).tx = [] ∧
      (g t).cfOk = false := by
    intro t
    cases t with
    | worker => rw [hw]; exact ⟨rfl, rfl, rfl, rfl, rfl⟩
    | client i => rw [hc]; exact ⟨rfl, rfl, rfl, rfl, rfl⟩
  constructor
  · rw [hw]; exact ⟨rfl, rfl⟩
  · intro t h; rw [(all t).2.1, (all t).2.2.1] at h; simp at h
  · simp
  · intro x hx; cases hx
  · rfl
  · simp
  · intro t bs r h; rw [(all t).2.2.2.1] at h; cases h
  · intro t bs r h; rw [(all t).2.2.2.1] at h; cases h
  · intro t h; rw [(all t).2.2.2.2] at h; cases h
  · intro t r q rest fp _ h; rw [(all t).2.2.2.1] at h; cases h
  · intro t q fp _ _ h; rw [(all t).2.2.1] at h; exact absurd h no_transaction

theorem inv2 {S : Setup σ} (U : ProfileUnit S.line S.env) {w : World σ} {s : Sys σ}
    (h : Reachable S (Sys.initial w) s) : ∃ g, (scheme2 S U (U.pct w.line)).Inv g s := by
  refine (scheme2 S U (U.pct w.line)).sound ⟨glob1_start w _ rfl fun _ => rfl, ?_, fun _ => ⟨?_, ?_⟩,
    fun _ => ⟨[], prof_start w _ rfl fun _ => rfl⟩⟩ h
  · intro t
    cases t <;> simp [amHolder, Scheme.start, scheme2, idle1]
  · intro t
    cases t <;> rfl
  · intro pre t bs r post he
    simp at he

end Comfo
