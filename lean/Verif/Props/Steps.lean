import Verif.Lemmas.Steps
import Verif.Spec.Steps
import Verif.Props.Requests
/-!
# Concurrent requests to change the fan speed lose no step: C74

Stated for every unit that works as `Spec.ReportUnit` says, every number of requests of every kind,
and every interleaving.
-/
namespace Comfo.Props
open Spec

/-- Not a speed command. -/
def noSpeed : Act → Bool
  | .wrote bs _ => bs.take 4 != [0x07, 0xF0, 0x00, 0x99]
  | _ => true

theorem calm_noSpeed {a : Act} (h : a.calm = true) : noSpeed a = true := by
  cases a <;> first | rfl | exact h

/-- One of two moments is the earlier one. -/
theorem two_moments {α : Type} {pre post pre' post' : List α} {x y : α}
    (h : pre ++ x :: post = pre' ++ y :: post') :
    (pre = pre' ∧ x = y ∧ post = post') ∨ (∃ m, pre' = pre ++ x :: m ∧ post = m ++ y :: post') ∨
      ∃ m, pre = pre' ++ y :: m ∧ post' = m ++ x :: post := by
  rcases List.append_eq_append_iff.mp h with ⟨as, h1, h2⟩ | ⟨cs, h1, h2⟩
  · cases as with
    | nil =>
      simp only [List.append_nil, List.nil_append, List.cons.injEq] at h1 h2
      exact .inl ⟨h1.symm, h2.1, h2.2⟩
    | cons z as =>
      simp only [List.cons_append, List.cons.injEq] at h2
      exact .inr (.inl ⟨as, by rw [h1, h2.1], h2.2⟩)
  · cases cs with
    | nil =>
      simp only [List.append_nil, List.nil_append, List.cons.injEq] at h1 h2
      exact .inl ⟨h1, h2.1.symm, h2.2.symm⟩
    | cons z cs =>
      simp only [List.cons_append, List.cons.injEq] at h2
      exact .inr (.inr ⟨cs, by rw [h1, h2.1], h2.2⟩)

/-- Where the command of a request is in the trace, and what the request did before and after. -/
theorem stepped_at {S : Setup σ} {w : World σ} {s : Sys σ} (h : Reachable S (Sys.initial w) s)
    {i : Nat} {abs : UInt32} {rel : Bool} {a : SpeedModified}
    (ha : Answered s i (.setSpeed abs rel) (.speed (.ok a))) (hmod : a.modified = true)
    {bs : List UInt8} {r : Nat × Option Err} {pre rest : List (Tid × Act)}
    (hbs : bs.take 4 = [0x07, 0xF0, 0x00, 0x99])
    (htr : s.sh.trace = pre ++ (.client i, .wrote bs r) :: rest) :
    ∃ (t : Int) (c : Entry FanProfiles) (m : UInt8) (e : Bool) (q : Packet) (B : List Act),
      bs = frame 0x99 [m] ∧
      actsOf (.client i) pre = [.now t, .lock .fan, .load .profiles c, .lock .pm] ∧
      actsOf (.client i) rest = .got e (q, none) :: (B ++ [.unlock .fan]) ∧
      (∀ a ∈ B, a.calm = true) ∧ a.originalSpeed = c.val.currentMode.toUInt32 ∧
      a.targetSpeed = m.toUInt32 ∧ modifySpeed c.val.currentMode abs rel = (m, none) ∧
      ((∃ e, (Tid.client i, Act.store .profiles e) ∈ s.sh.trace) → ∃ b1 τ w fa b2, B = b1 ++ fa ++ b2 ∧
        Fetched .profiles τ w fa) := by
  obtain ⟨t, c, m, n, e, q, B, h1, h2, h3, h4, h5, h6⟩ := speed_shape (speed_answered h ha) hmod
  have h7 : actsOf (.client i) s.sh.trace =
      actsOf (.client i) pre ++ .wrote bs r :: actsOf (.client i) rest := by
    rw [htr, actsOf_append, actsOf_cons_self]
  obtain ⟨e1, e2, e3⟩ := only_once (p := noSpeed) (h1.symm.trans h7)
    (by simp [noSpeed])
    (by
      intro a ha
      simp only [List.mem_cons, List.mem_append, List.not_mem_nil, or_false] at ha
      rcases ha with rfl | ha | rfl
      · rfl
      · exact calm_noSpeed (h2 a ha)
      · rfl)
    (by simp [noSpeed, take_frame]) (by simp [noSpeed, hbs])
  simp only [Act.wrote.injEq] at e2
  refine ⟨t, c, m, e, q, B, e2.1.symm, e1.symm, e3.symm, h2, h3, h4, h5, ?_⟩
  rintro ⟨x, hx⟩
  exact h6 ⟨x, mem_actsOf.2 hx⟩

/-- No unlocking of the fan lock. -/
def NoLeave (acts : List Act) : Prop := ∀ a ∈ acts, ∀ l, a = .unlock l ∨ a = .runlock l → l ≠ .fan

/-- Two requests are not inside the fan lock at the same time. -/
theorem no_overlap {S : Setup σ} {w : World σ} {s : Sys σ} (h : Reachable S (Sys.initial w) s)
    {X Y : List (Tid × Act)} (htr : s.sh.trace = X ++ Y) {t u : Tid} (htu : t ≠ u)
    {as bs as' bs' : List Act} (ht : actsOf t X = as ++ .lock .fan :: bs) (hb : NoLeave bs)
    (hu : actsOf u X = as' ++ .lock .fan :: bs') (hb' : NoLeave bs') : False := by
  have key : ∀ {t u : Tid} {p1 p2 m : List (Tid × Act)} {as bs : List Act},
      t ≠ u → X = p1 ++ (u, .lock .fan) :: p2 → p1 = m → actsOf t X = as ++ .lock .fan :: bs →
      NoLeave bs → (∃ m1 m2, p1 = m1 ++ (t, .lock .fan) :: m2 ∧ actsOf t m1 = as) → False := by
    rintro t u p1 p2 m as bs htu hX - ht hb ⟨m1, m2, rfl, h1⟩
    have hout := lock_outside h (t := u) (l := .fan) (pre := m1 ++ (t, .lock .fan) :: m2)
      (post := p2 ++ Y) (by rw [htr, hX]; simp) t
    have hin : inside t .fan (m1 ++ (t, .lock .fan) :: m2) = true := by
      refine inside_calm (as := as) (bs := actsOf t m2) (by rw [actsOf_append, actsOf_cons_self, h1]) ?_
      have : bs = actsOf t m2 ++ actsOf t p2 := by
        rw [hX, actsOf_append, actsOf_append, actsOf_cons_self, actsOf_cons_other _ _ (Ne.symm htu), h1,
          List.append_assoc, List.cons_append] at ht
        have := List.append_cancel_left ht
        simp only [List.cons.injEq, true_and] at this
        exact this.symm
      intro a ha
      exact hb a (by rw [this]; exact List.mem_append_left _ ha)
    rw [hout] at hin; cases hin
  obtain ⟨p1, p2, e1, e2, e3⟩ := actsOf_split ht
  obtain ⟨q1, q2, e4, e5, e6⟩ := actsOf_split hu
  rcases two_moments (e1.symm.trans e4) with ⟨-, h4, -⟩ | ⟨m, h4, -⟩ | ⟨m, h4, -⟩
  · exact htu (congrArg Prod.fst h4)
  · exact key htu e4 rfl ht hb ⟨p1, m, h4, e2⟩
  · exact key (Ne.symm htu) e1 rfl hu hb' ⟨q1, m, h4, e5⟩

/-- Request `i`, inside the fan lock, does `x`; later request `j`, which has taken the fan lock in between
or before and done nothing else, does `y`. Then `i` was through before. -/
theorem fan_next {S : Setup σ} {w : World σ} {s : Sys σ} (h : Reachable S (Sys.initial w) s)
    {i j : Nat} (hij : j ≠ i) {x y : Act} {pre mid post : List (Tid × Act)} {τ : Int}
    (htr : s.sh.trace = pre ++ (.client i, x) :: (mid ++ (.client j, y) :: post))
    (hj : actsOf (.client j) (pre ++ (.client i, x) :: mid) = [.now τ, .lock .fan])
    {as bs B : List Act} (hpre : actsOf (.client i) pre = as ++ .lock .fan :: bs) (hbs : NoLeave bs)
    (hx : ∀ l, x = .unlock l ∨ x = .runlock l ∨ x = .lock l → l ≠ .fan)
    (hrest : actsOf (.client i) (mid ++ (.client j, y) :: post) = B ++ [.unlock .fan])
    (hB : NoLeave B) : actsOf (.client i) mid = B ++ [.unlock .fan] := by
  have hji : Tid.client j ≠ Tid.client i := by simpa using hij
  have hlock : ∃ mid₁ mid₂, mid = mid₁ ++ (.client j, .lock .fan) :: mid₂ := by
    obtain ⟨p1, p2, h1, h2, h3⟩ := actsOf_split (as := [.now τ]) hj
    rcases two_moments h1 with ⟨-, h4, -⟩ | ⟨m', h4, h5⟩ | ⟨m', h4, h5⟩
    · exact absurd (congrArg Prod.fst h4).symm hji
    · exact ⟨m', p2, h5⟩
    · exfalso
      rw [h5, actsOf_append, List.append_eq_nil_iff] at h3
      refine no_overlap h htr (Ne.symm hji) hpre hbs (as' := [.now τ]) (bs' := []) ?_ (by simp [NoLeave])
      rw [h4, actsOf_append, actsOf_cons_self, h2, h3.1]
  obtain ⟨mid₁, mid₂, rfl⟩ := hlock
  have hout := lock_outside h (t := .client j) (l := .fan) (pre := pre ++ (.client i, x) :: mid₁)
    (post := mid₂ ++ (.client j, y) :: post) (by rw [htr]; simp) (.client i)
  have hsplit : actsOf (.client i) mid₁ ++ actsOf (.client i) (mid₂ ++ (.client j, y) :: post) =
      B ++ [.unlock .fan] := by
    rw [← hrest]; simp only [actsOf_append, actsOf_cons_other _ _ hji, List.append_assoc]
  generalize hA : actsOf (.client i) (mid₂ ++ (.client j, y) :: post) = acts₂ at hsplit
  have hnil : acts₂ = [] := by
    rcases List.eq_nil_or_concat acts₂ with h0 | ⟨l, z, h0⟩
    · exact h0
    · exfalso
      have hd : actsOf (.client i) mid₁ ++ l = B := by
        have : actsOf (.client i) mid₁ ++ l ++ [z] = B ++ [.unlock .fan] := by
          rw [List.append_assoc, show l ++ [z] = acts₂ by rw [h0]; simp, hsplit]
        exact (List.append_inj' this rfl).1
      have : inside (.client i) .fan (pre ++ (.client i, x) :: mid₁) = true := by
        refine inside_calm (as := as) (bs := bs ++ x :: actsOf (.client i) mid₁)
          (by rw [actsOf_append, actsOf_cons_self, hpre]; simp) ?_
        intro a ha l' hl'
        simp only [List.mem_append, List.mem_cons] at ha
        rcases ha with ha | rfl | ha
        · exact hbs a ha l' hl'
        · exact hx l' (hl'.imp id .inl)
        · exact hB a (by rw [← hd]; exact List.mem_append_left _ ha) l' hl'
      rw [hout] at this; cases this
  rw [hnil] at hA hsplit
  have : actsOf (.client i) mid₂ = [] := by
    rw [actsOf_append, List.append_eq_nil_iff] at hA; exact hA.1
  rw [actsOf_append, actsOf_cons_other _ _ hji, this]
  simpa using hsplit

theorem calm_noLeave {B : List Act} (hB : ∀ a ∈ B, a.calm = true) : NoLeave B := by
  intro a ha l hl
  have := hB a ha
  rcases hl with rfl | rfl <;> simpa [Act.calm] using this

/-- What somebody sees in the cache after goroutine `t` has sent a command that was confirmed, and has
read the setting again: what was set. -/
theorem load_after {cmd : UInt8} {id : CacheId} {shows : List UInt8 → CVal id → Prop} {S : Setup σ}
    (hcmd : cmd ≠ requestCode id) (U : ReportUnit cmd id shows S.line S.env)
    {w : World σ} {s : Sys σ} (h : Reachable S (Sys.initial w) s) {t u : Tid} {d : List UInt8}
    {r : Nat × Option Err} {pre mid post : List (Tid × Act)} {c : Entry (CVal id)} {e : Bool} {q : Packet}
    {b1 fa b2 : List Act} {τ' : Int} {v : CVal id}
    (htr : s.sh.trace = pre ++ (t, .wrote (frame cmd d) r) :: (mid ++ (u, .load id c) :: post))
    (hsplit : actsOf t mid = .got e (q, none) :: (b1 ++ fa ++ b2)) (hfa : Fetched id τ' v fa)
    (hn : NoCommand cmd mid) : shows d c.val := by
  obtain ⟨n', q', hq1, hq2, rfl⟩ := hfa
  -- the value seen was stored after that
  have hstm : (t, Act.store id ⟨v, τ'⟩) ∈ mid := by
    rw [← mem_actsOf, hsplit]; simp
  have hld := load_last h (pre := pre ++ (t, .wrote (frame cmd d) r) :: mid) (post := post) (t := u)
    (id := id) (c := c) (by rw [htr]; simp)
  rcases hld with ⟨-, hno⟩ | ⟨p, u', q₀, hp, hno⟩
  · exact absurd (by simp [hstm]) (hno t ⟨v, τ'⟩)
  · have hpos : ∃ m', p = pre ++ (t, .wrote (frame cmd d) r) :: m' ∧
        mid = m' ++ (u', .store id c) :: q₀ := by
      rcases two_moments hp with ⟨-, h4, -⟩ | ⟨m', h4, h5⟩ | ⟨m', h4, h5⟩
      · cases h4
      · exact ⟨m', h4, h5⟩
      · exact absurd (by rw [h5]; simp [hstm]) (hno t ⟨v, τ'⟩)
    obtain ⟨m', rfl, hm'⟩ := hpos
    have hcur := store_current h (pre := pre ++ (t, .wrote (frame cmd d) r) :: m') (t := u')
      (id := id) (e := c) (post := q₀ ++ (u, .load id c) :: post) (by
        rw [htr, hm']; simp)
    have hown : ∃ cs, actsOf t m' = (.got e (q, none) :: b1) ++ [.note id τ', .lock .pm,
        .wrote (frame (requestCode id) []) (n', none), .got true (q', none), .wrote ack (2, none),
        .unlock .pm] ++ cs := by
      have hlist := congrArg (actsOf t) hm'
      rw [actsOf_append, hsplit] at hlist
      have hq₀ : ∀ e, Act.store id e ∉ actsOf t q₀ :=
        fun e he => hno t e (mem_actsOf.1 he)
      obtain ⟨A2, hA2, hcase⟩ : ∃ A2, actsOf t ((u', .store id c) :: q₀) = A2 ∧
          (A2 = actsOf t q₀ ∨ ∃ y, A2 = y :: actsOf t q₀) := by
        by_cases hu : u' = t
        · subst hu
          exact ⟨_, rfl, .inr ⟨_, actsOf_cons_self _ _ _⟩⟩
        · exact ⟨_, rfl, .inl (actsOf_cons_other _ _ hu)⟩
      rw [hA2] at hlist
      have hlist' : ((.got e (q, none) :: b1) ++ [.note id τ', .lock .pm,
          .wrote (frame (requestCode id) []) (n', none), .got true (q', none), .wrote ack (2, none),
          .unlock .pm]) ++ Act.store id ⟨v, τ'⟩ :: b2 = actsOf t m' ++ A2 := by
        rw [← hlist]; simp
      rcases List.append_eq_append_iff.mp hlist' with ⟨as, h1, h2⟩ | ⟨cs, h1, h2⟩
      · exact ⟨as, h1⟩
      · cases cs with
        | nil => exact ⟨[], by rw [h1]; simp⟩
        | cons y cs =>
          exfalso
          rcases hcase with h3 | ⟨z, h3⟩
          · exact hq₀ ⟨v, τ'⟩ (by rw [← h3, h2]; simp)
          · rw [h3, List.cons_append, List.cons.injEq] at h2
            exact hq₀ ⟨v, τ'⟩ (by rw [h2.2]; simp)
    obtain ⟨cs, hown⟩ := hown
    obtain ⟨g1, g2, hg, hg1, -⟩ := actsOf_split (as := []) (a := .got e (q, none)) (bs := b1 ++ [.note id τ',
        .lock .pm, .wrote (frame (requestCode id) []) (n', none), .got true (q', none),
        .wrote ack (2, none), .unlock .pm] ++ cs) (by rw [hown]; simp)
    have hconf : Confirmed (pre ++ (t, .wrote (frame cmd d) r) :: m') t (frame cmd d) pre m' :=
      ⟨r, g1, e, q, g2, rfl, hg, fun a ha => by
        have := mem_actsOf.2 ha
        rw [hg1] at this; cases this⟩
    have hn' : NoCommand cmd m' := by
      intro t' d r' hm
      exact hn t' d r' (by rw [hm']; exact List.mem_append_left _ hm)
    have hne := ack_success (id := id) (fa := [.note id τ', .lock .pm,
        .wrote (frame (requestCode id) []) (n', none), .got true (q', none), .wrote ack (2, none),
        .unlock .pm]) (w := v) (τ := τ') ⟨n', q', hq1, hq2, rfl⟩ hown (others t (scanAll id pre).2)
    obtain ⟨g, hi⟩ := inv6 hcmd U h
    have hE : EchoInv U g s.sh := hi.glob.2
    have hsf := scan_from (id := id) hcmd hconf
    match hsu : successes id (others t (scanAll id pre).2) m' with
    | none => exact absurd hsu hne
    | some (v', τ'') =>
      have hshow := hE.echo _ ((u', .store id c) :: (q₀ ++ (u, .load id c) :: post))
        t d pre m' (by rw [htr, hm']; simp) hconf hn' v' τ'' hsu
      rw [hsf, hsu] at hcur
      simp only [Option.some_or, Option.some.injEq, Prod.mk.injEq] at hcur
      rwa [hcur.1] at hshow

/-- What the next request sees: the speed that was set. -/
theorem next_sees {S : Setup σ} (U : ReportUnit 0x99 .profiles ShowsSpeed S.line S.env)
    {w : World σ} {s : Sys σ} (h : Reachable S (Sys.initial w) s) {i j : Nat} {abs : UInt32}
    {rel : Bool} {a : SpeedModified} (ha : Stepped s i abs rel a) (hij : j ≠ i)
    {bs : List UInt8} {r : Nat × Option Err} {pre mid post : List (Tid × Act)} {τ : Int}
    {c : Entry FanProfiles} (hbs : bs.take 4 = [0x07, 0xF0, 0x00, 0x99])
    (htr : s.sh.trace = pre ++ (.client i, .wrote bs r) :: (mid ++ (.client j, .load .profiles c) :: post))
    (hj : actsOf (.client j) (pre ++ (.client i, .wrote bs r) :: mid) = [.now τ, .lock .fan])
    (hn : NoCommand 0x99 mid) : c.val.currentMode.toUInt32 = a.targetSpeed := by
  obtain ⟨ha, hmod, hst⟩ := ha
  have hji : Tid.client j ≠ Tid.client i := by simpa using hij
  obtain ⟨t₀, c₀, m, e, q, B, rfl, hH, hrest, hB, -, htgt, -, hfe⟩ := stepped_at h ha hmod hbs htr
  obtain ⟨b1, τ', v, fa, b2, rfl, hfa⟩ := hfe hst
  have hsplit := fan_next h hij htr hj (as := [.now t₀]) (bs := [.load .profiles c₀, .lock .pm])
    (B := .got e (q, none) :: (b1 ++ fa ++ b2)) (by rw [hH]; rfl) (by simp [NoLeave]) (by simp)
    (by rw [hrest]; rfl) (calm_noLeave (by simpa [Act.calm] using hB))
  have hshow := load_after (by decide) U h (e := e) (q := q) (b1 := b1) (fa := fa)
    (b2 := b2 ++ [.unlock .fan]) htr (by rw [hsplit]; simp) hfa hn
  simp only [ShowsSpeed, List.cons.injEq, and_true] at hshow
  rw [htgt, hshow]

/-! ## C74 -/

/-- **C74** (partial) `SetFanSpeed` request `i` has changed the speed and read the unit again. Request
`j` looks at the cached speed later, for the first time (after `mid`), and nobody has sent another
speed command in between. Then `j` starts from the speed that `i` has reported: it reports that speed
as the original one, and refuses to increase it only if it is 4, to decrease it only if it is 1.
Missing: a unit that does not answer when it is read again, see `C74_violated`. -/
theorem C74_next_partial {S : Setup σ} (U : ReportUnit 0x99 .profiles ShowsSpeed S.line S.env)
    {w : World σ} {s : Sys σ} (h : Reachable S (Sys.initial w) s) {i j : Nat}
    {abs abs' : UInt32} {rel rel' : Bool} {a : SpeedModified} {x : Rpc SpeedModified}
    (ha : Stepped s i abs rel a) (hb : Answered s j (.setSpeed abs' rel') (.speed x)) (hij : j ≠ i)
    {d : List UInt8} {r : Nat × Option Err} {pre mid post : List (Tid × Act)} {c : Entry FanProfiles}
    (htr : s.sh.trace =
      pre ++ (.client i, .wrote (frame 0x99 d) r) :: (mid ++ (.client j, .load .profiles c) :: post))
    (hfirst : ∀ e, (Tid.client j, Act.load .profiles e) ∉ pre ++ mid) (hn : NoCommand 0x99 mid) :
    (∀ b, x = .ok b → b.originalSpeed = a.targetSpeed) ∧
    (abs' = 0 → rel' = true → ((∃ arg, x = .err (.invalidArgument arg)) ↔ a.targetSpeed = 4)) ∧
    (abs' = 0 → rel' = false → ((∃ arg, x = .err (.invalidArgument arg)) ↔ a.targetSpeed = 1)) := by
  have hji : Tid.client j ≠ Tid.client i := by simpa using hij
  obtain ⟨t, c', rest, h1, h2, h3⟩ := speed_head (speed_answered h hb)
  rw [show pre ++ (Tid.client i, Act.wrote (frame 0x99 d) r) :: (mid ++ (.client j, .load .profiles c) :: post) =
    (pre ++ (.client i, .wrote (frame 0x99 d) r) :: mid) ++ (.client j, .load .profiles c) :: post by simp] at htr
  have h4 := h1
  rw [htr, actsOf_append, actsOf_cons_self] at h4
  have hno : ∀ e, Act.load .profiles e ∉ actsOf (.client j) (pre ++ (.client i, .wrote (frame 0x99 d) r) :: mid) := by
    intro e he
    rw [mem_actsOf] at he
    simp only [List.mem_append, List.mem_cons, Prod.mk.injEq, reduceCtorEq, and_false, false_or] at he
    exact hfirst e (List.mem_append.2 he)
  have hpos : actsOf (.client j) (pre ++ (.client i, .wrote (frame 0x99 d) r) :: mid) = [.now t, .lock .fan] ∧
      c = c' := by
    rcases two_moments h4 with ⟨e1, e2, -⟩ | ⟨m, e1, -⟩ | ⟨m, e1, -⟩
    · cases e2
      exact ⟨e1, rfl⟩
    · exfalso
      have : Act.load .profiles c ∈ [Act.now t, Act.lock .fan] := by rw [e1]; simp
      simp at this
    · exact absurd (by rw [e1]; simp) (hno c')
  obtain ⟨hpos, rfl⟩ := hpos
  have hsee := next_sees U h ha hij (take_frame _ _) (c := c) (post := post) (by rw [htr]; simp) hpos hn
  obtain ⟨ha, hmod, -⟩ := ha
  obtain ⟨t₀, c₀, m, e, q, B, -, -, -, -, -, htgt, hm, -⟩ := stepped_at h ha hmod (take_frame _ d)
    (show s.sh.trace = pre ++ (.client i, .wrote (frame 0x99 d) r) ::
      (mid ++ (.client j, .load .profiles c) :: post) by rw [htr]; simp)
  have hrange := (C39_modify_speed c₀.val.currentMode abs rel).2.1 (by rw [hm])
  rw [hm] at hrange
  have hc : c.val.currentMode = m := by
    rw [htgt] at hsee
    have := congrArg UInt32.toNat hsee
    exact UInt8.toNat_inj.1 (by simpa using this)
  have h4' : a.targetSpeed = 4 ↔ m.toNat = 4 := by
    rw [htgt, ← UInt32.toNat_inj]; simp
  have h1' : a.targetSpeed = 1 ↔ m.toNat = 1 := by
    rw [htgt, ← UInt32.toNat_inj]; simp
  refine ⟨fun b hx => (h2 b hx).trans hsee, ?_, ?_⟩
  · rintro rfl rfl
    have := ((C39_modify_speed c.val.currentMode 0 true).2.2.2.1 ⟨rfl, rfl⟩).1
    rw [h3, h4', ne_eq, this, hc]
    simp only at hrange
    omega
  · rintro rfl rfl
    have := ((C39_modify_speed c.val.currentMode 0 false).2.2.2.2.1 ⟨rfl, rfl⟩).1
    rw [h3, h1', ne_eq, this, hc]
    simp only at hrange
    omega

/-- The goroutine of a speed command. -/
def speedOf (x : Tid × Act) : Option Tid :=
  match x with
  | (t, .wrote bs _) => if bs.take 4 = [0x07, 0xF0, 0x00, 0x99] then some t else none
  | _ => none

theorem speedCommands_eq (tr : List (Tid × Act)) : speedCommands tr = tr.filterMap speedOf := rfl

theorem speedOf_some {x : Tid × Act} {t : Tid} (h : speedOf x = some t) :
    ∃ bs r, x = (t, .wrote bs r) ∧ bs.take 4 = [0x07, 0xF0, 0x00, 0x99] := by
  obtain ⟨u, a⟩ := x
  cases a <;> simp only [speedOf] at h <;> try cases h
  rename_i bs r
  split at h
  · rename_i hb; cases h; exact ⟨bs, r, rfl, hb⟩
  · cases h

theorem noCommand_of {tr : List (Tid × Act)} (h : speedCommands tr = []) : NoCommand 0x99 tr := by
  intro t d r hm
  rw [speedCommands_eq, List.filterMap_eq_nil_iff] at h
  have := h _ hm
  simp [speedOf, take_frame] at this

/-- The place of a command in the trace. -/
theorem speed_split {tr : List (Tid × Act)} {l₁ l₂ : List Tid} {t : Tid}
    (h : speedCommands tr = l₁ ++ t :: l₂) :
    ∃ pre bs r post, tr = pre ++ (t, .wrote bs r) :: post ∧ bs.take 4 = [0x07, 0xF0, 0x00, 0x99] ∧
      speedCommands pre = l₁ ∧ speedCommands post = l₂ := by
  rw [speedCommands_eq, List.filterMap_eq_append_iff] at h
  obtain ⟨p1, p2, rfl, h1, h2⟩ := h
  rw [List.filterMap_eq_cons_iff] at h2
  obtain ⟨q1, x, q2, rfl, h3, h4, h5⟩ := h2
  obtain ⟨bs, r, rfl, hb⟩ := speedOf_some h4
  refine ⟨p1 ++ q1, bs, r, q2, by simp, hb, ?_, h5⟩
  rw [speedCommands_eq, List.filterMap_append, h1, List.filterMap_eq_nil_iff.2 h3, List.append_nil]

/-- **C74** (partial) Two requests that changed the speed, one directly after the other: the second
one starts from where the first one ended. Missing: a unit that does not answer when it is read again,
see `C74_violated`. -/
theorem C74_chain_partial {S : Setup σ} (U : ReportUnit 0x99 .profiles ShowsSpeed S.line S.env)
    {w : World σ} {s : Sys σ} (h : Reachable S (Sys.initial w) s) {i j : Nat}
    {abs abs' : UInt32} {rel rel' : Bool} {a b : SpeedModified}
    (ha : Stepped s i abs rel a) (hb : Stepped s j abs' rel' b) {l₁ l₂ : List Tid}
    (hl : speedCommands s.sh.trace = l₁ ++ .client i :: .client j :: l₂) :
    i ≠ j ∧ b.originalSpeed = a.targetSpeed := by
  obtain ⟨pre, bs, r, post, htr, hbs, -, h2⟩ := speed_split hl
  obtain ⟨mid, bs', r', post', rfl, hbs', h3, -⟩ := speed_split (l₁ := []) h2
  obtain ⟨t, c, m, e, q, B, -, hp, hrest, hB, -, -, -, -⟩ := stepped_at h ha.1 ha.2.1 hbs htr
  have hij : i ≠ j := by
    rintro rfl
    have : Act.wrote bs' r' ∈ actsOf (.client i) (mid ++ (.client i, .wrote bs' r') :: post') := by
      rw [mem_actsOf]; simp
    rw [hrest] at this
    simp only [List.mem_cons, List.mem_append, reduceCtorEq, List.not_mem_nil, or_false, false_or] at this
    have := hB _ this
    simp [Act.calm, hbs'] at this
  refine ⟨hij, ?_⟩
  have hji : Tid.client j ≠ Tid.client i := by simpa using Ne.symm hij
  obtain ⟨t', c', m', e', q', B', -, hp', -, -, ho, -, -, -⟩ := stepped_at h hb.1 hb.2.1 hbs'
    (show s.sh.trace = (pre ++ (.client i, .wrote bs r) :: mid) ++ (.client j, .wrote bs' r') :: post' by
      rw [htr]; simp)
  obtain ⟨p1, p2, h4, h5, h6⟩ := actsOf_split (as := [.now t', .lock .fan]) (a := .load .profiles c')
    (bs := [.lock .pm]) hp'
  rcases two_moments h4 with ⟨-, h7, -⟩ | ⟨m₁, h7, h8⟩ | ⟨m₁, h7, h8⟩
  · cases h7
  · rw [ho]
    subst h7
    have hn := noCommand_of h3
    rw [h8] at htr hn
    refine next_sees U h ha (Ne.symm hij) hbs (mid := m₁) (post := p2 ++ (.client j, .wrote bs' r') :: post')
      (by rw [htr]; simp) h5 ?_
    intro t d r hm
    exact hn t d r (List.mem_append_left _ hm)
  · exfalso
    refine no_overlap h htr (Ne.symm hji) (as := [.now t]) (bs := [.load .profiles c, .lock .pm])
      (as' := [.now t']) (bs' := .load .profiles c' :: actsOf (.client j) m₁) (by rw [hp]; rfl) ?_ ?_ ?_
    · simp [NoLeave]
    · rw [h7, actsOf_append, actsOf_cons_self, h5]; rfl
    · have : ∀ a ∈ actsOf (.client j) m₁, a = .lock .pm := by
        intro a ha
        rw [h8, actsOf_append] at h6
        have : a ∈ [Act.lock .pm] := by rw [← h6]; exact List.mem_append_left _ ha
        simpa using this
      intro a ha l hl
      simp only [List.mem_cons] at ha
      rcases ha with rfl | ha
      · rcases hl with h | h <;> cases h
      · rw [this a ha] at hl
        rcases hl with h | h <;> cases h

/-- The speed commands are those of different requests, if each of their requests has stepped. -/
theorem commands_nodup {S : Setup σ} {w : World σ} {s : Sys σ} (h : Reachable S (Sys.initial w) s)
    (hall : ∀ t ∈ speedCommands s.sh.trace, ∃ i abs rel a, t = .client i ∧ Stepped s i abs rel a) :
    (speedCommands s.sh.trace).Nodup := by
  have once : ∀ (l₁ l₂ : List Tid) (t : Tid), speedCommands s.sh.trace = l₁ ++ t :: l₂ → t ∉ l₂ := by
    intro l₁ l₂ t hl hm
    obtain ⟨i, abs, rel, a, rfl, ha⟩ := hall t (by rw [hl]; simp)
    obtain ⟨pre, bs, r, post, htr, hbs, -, h2⟩ := speed_split hl
    obtain ⟨m₁, m₂, hm⟩ := List.append_of_mem hm
    obtain ⟨mid, bs', r', post', rfl, hbs', -, -⟩ := speed_split (h2.trans hm)
    obtain ⟨t, c, m, e, q, B, -, -, hrest, hB, -, -, -, -⟩ := stepped_at h ha.1 ha.2.1 hbs htr
    have : Act.wrote bs' r' ∈ actsOf (.client i) (mid ++ (.client i, .wrote bs' r') :: post') := by
      rw [mem_actsOf]; simp
    rw [hrest] at this
    simp only [List.mem_cons, List.mem_append, reduceCtorEq, List.not_mem_nil, or_false, false_or] at this
    have := hB _ this
    simp [Act.calm, hbs'] at this
  have go : ∀ (l₂ l₁ : List Tid), speedCommands s.sh.trace = l₁ ++ l₂ → l₂.Nodup := by
    intro l₂
    induction l₂ with
    | nil => simp
    | cons t l₂ ih =>
      intro l₁ hl
      exact List.nodup_cons.2 ⟨once l₁ l₂ t hl, ih (l₁ ++ [t]) (by rw [hl]; simp)⟩
  exact go _ [] rfl

/-- **C74** (partial) Any number of requests to increase the speed, at the same time or not, and no
other speed commands: each of them has reported a modification and read the unit again. Each has sent
one command, and when the last command has been sent and confirmed the unit runs at the speed it had
for the first of them, plus the number of requests: no step is lost. Missing: a unit that does not
answer when it is read again, see `C74_violated`. -/
theorem C74_count_partial {S : Setup σ} (U : ReportUnit 0x99 .profiles ShowsSpeed S.line S.env)
    {w : World σ} {s : Sys σ} (h : Reachable S (Sys.initial w) s)
    (hall : ∀ t ∈ speedCommands s.sh.trace, ∃ i a, t = .client i ∧ Stepped s i 0 true a)
    {i : Nat} {l : List Tid} (hl : speedCommands s.sh.trace = .client i :: l) :
    (speedCommands s.sh.trace).Nodup ∧
    ∃ (a : SpeedModified) (m : UInt8), Stepped s i 0 true a ∧ U.value s.sh.world.line = [m] ∧
      m.toNat = a.originalSpeed.toNat + (speedCommands s.sh.trace).length := by
  refine ⟨commands_nodup h fun t ht => ?_, ?_⟩
  · obtain ⟨i, a, h1, h2⟩ := hall t ht
    exact ⟨i, _, _, a, h1, h2⟩
  -- one step is one more
  have one : ∀ {k b}, Stepped s k 0 true b → (Tid.client k) ∈ speedCommands s.sh.trace →
      b.targetSpeed.toNat = b.originalSpeed.toNat + 1 := by
    intro k b hb hm
    obtain ⟨l₁, l₂, hm⟩ := List.append_of_mem hm
    obtain ⟨pre, bs, r, post, htr, hbs, -, -⟩ := speed_split hm
    obtain ⟨t, c, m, e, q, B, -, -, -, -, ho, ht, hmod, -⟩ := stepped_at h hb.1 hb.2.1 hbs htr
    have := ((C39_modify_speed c.val.currentMode 0 true).2.2.2.1 ⟨rfl, rfl⟩).2 (by rw [hmod])
    rw [hmod] at this
    rw [ho, ht]
    simpa using this
  obtain ⟨i', a, he, ha⟩ := hall (.client i) (by rw [hl]; simp)
  cases he
  -- where each request ends
  have ends : ∀ (l₂ l₁ : List Tid) k b, speedCommands s.sh.trace = l₁ ++ .client k :: l₂ →
      Stepped s k 0 true b → b.targetSpeed.toNat + l₂.length = a.originalSpeed.toNat +
        (speedCommands s.sh.trace).length →
      ∃ k' b' l₃, speedCommands s.sh.trace = l₃ ++ [.client k'] ∧ Stepped s k' 0 true b' ∧
        b'.targetSpeed.toNat = a.originalSpeed.toNat + (speedCommands s.sh.trace).length := by
    intro l₂
    induction l₂ with
    | nil => intro l₁ k b h1 h2 h3; exact ⟨k, b, l₁, h1, h2, by simpa using h3⟩
    | cons t l₂ ih =>
      intro l₁ k b h1 h2 h3
      obtain ⟨k', b', rfl, h4⟩ := hall t (by rw [h1]; simp)
      have h5 := (C74_chain_partial U h h2 h4 h1).2
      have h6 := one h4 (by rw [h1]; simp)
      refine ih (l₁ ++ [.client k]) k' b' (by rw [h1]; simp) h4 ?_
      rw [h6, h5, ← h3]
      simp; omega
  obtain ⟨k, b, l₃, h1, h2, h3⟩ := ends l [] i a hl ha (by
    rw [one ha (by rw [hl]; simp), hl]; simp; omega)
  obtain ⟨pre, bs, r, post, htr, hbs, -, hnil⟩ := speed_split h1
  obtain ⟨t, c, m, e, q, B, rfl, -, hrest, -, -, ht, -, -⟩ := stepped_at h h2.1 h2.2.1 hbs htr
  obtain ⟨g1, g2, rfl, hg1, -⟩ := actsOf_split (as := []) hrest
  obtain ⟨g, hi⟩ := inv4 U.toSettingUnit h
  refine ⟨a, m, ha, ?_, ?_⟩
  · refine hi.glob.2.conf (.client k) [m] pre _ ⟨r, g1, e, q, g2, htr, rfl, fun a ha => ?_⟩ (noCommand_of hnil)
    have := mem_actsOf.2 ha
    rw [hg1] at this; cases this
  · rw [← h3, ht]; simp

/-! ## The examples' unit -/

/-- A unit whose fans run as its speed says. -/
def gearLine : Line Vent where
  write := ventLine.write
  read e s :=
    if s.last.getD 3 0 = 0x0B ∧ e = true ∧ s.mute = false then
      (.ret { command := 0x0C, data :=
        (if s.speed = 1 then [15, 15] else if s.speed = 2 then [30, 35]
          else if s.speed = 3 then [50, 55] else [70, 75]) ++ [4, 0, 4, 0] } none, s)
    else ventLine.read e s

/-- It works, as long as nobody uses the panel. -/
def gearSpeed : ReportUnit 0x99 .profiles ShowsSpeed gearLine ventFault where
  value s := [s.speed]
  last s := s.last
  took s := s.took
  write_last := ventSpeed.write_last
  write_set := ventSpeed.write_set
  write_other := ventSpeed.write_other
  read_same := by
    intro e s r s' h
    simp only [gearLine] at h
    split at h
    · cases h; rfl
    · exact ventSpeed.read_same h
  read_ack := by
    intro e s q s' d h hl
    simp only [gearLine] at h
    split at h
    · rename_i hc
      have : s.last.getD 3 0 = 0x99 := by rw [hl]; rfl
      rw [this] at hc
      exact absurd hc.1 (by decide)
    · exact ventSpeed.read_ack h hl
  env_same := ventSpeed.env_same
  read_reply := by
    intro s q s' v h hl hq hd
    simp only [gearLine] at h
    split at h
    · rename_i hc
      have : s.last.getD 3 0 = 0xCD := by rw [hl]; rfl
      rw [this] at hc
      exact absurd hc.1 (by decide)
    · exact ventSpeedReport.read_reply h hl hq hd

def gear : Setup Vent := { cv := amd64, line := gearLine, env := ventFault }

/-- The unit runs at speed `m`, and the cache says so. -/
def gearStart (m : UInt8) : World Vent :=
  { line := { speed := m, comfort := 82 }
    profiles := {
      val := {
        currentMode := m, inAway := 15, outAway := 15, inLow := 30, outLow := 35
        inMid := 50, outMid := 55, inHigh := 70, outHigh := 75 } } }

/-- Request `i` has stored a new value of the fan profiles. -/
def storedByB (i : Nat) (tr : List (Tid × Act)) : Bool :=
  tr.any fun x => match x with
    | (.client j, .store id _) => i == j && id == .profiles
    | _ => false

/-- The hypotheses are met: three requests to increase the speed arrive at the same time, take the
lock out of order, and all of them step. The speed of the unit was 1 and is 4. -/
example : ∃ s, Reachable gear (Sys.initial (gearStart 1)) s ∧
    (s.clients.map Client.call == [.setSpeed 0 true, .setSpeed 0 true, .setSpeed 0 true] &&
      speedCommands s.sh.trace == [.client 1, .client 0, .client 2] &&
      storedByB 0 s.sh.trace && storedByB 1 s.sh.trace && storedByB 2 s.sh.trace &&
      s.sh.world.line.speed == 4 &&
      match s.clients.map Client.prog with
      | [.ret (.speed (.ok a)), .ret (.speed (.ok b)), .ret (.speed (.ok c))] =>
        a.modified && b.modified && c.modified && b.originalSpeed == 1 && a.originalSpeed == 2 &&
          c.originalSpeed == 3
      | _ => false) = true := by
  refine exec_witness _ ([.arrive (.setSpeed 0 true), .arrive (.setSpeed 0 true),
    .arrive (.setSpeed 0 true)] ++ steps 1 (.client 0) ++ steps 2 (.client 1) ++ steps 1 (.client 2) ++
    steps 33 (.client 1) ++ steps 34 (.client 0) ++ steps 34 (.client 2))
    (fun _ _ => trivial) _ ?_
  decide +kernel

/-- **C74** (violated) Two requests to increase the speed. The unit carries the first one out and
confirms it, and its fans reach their percentages, but then it does not answer when the fan profiles
are read again. Both requests report that they have increased the speed from 1 to 2, and it is 2: a
step is lost. -/
theorem C74_violated : ∃ s a b, Reachable vent (Sys.initial (ventStart 1)) s ∧
    Answered s 0 (.setSpeed 0 true) (.speed (.ok a)) ∧ a.modified = true ∧
    Answered s 1 (.setSpeed 0 true) (.speed (.ok b)) ∧ b.modified = true ∧
    a.originalSpeed = 1 ∧ a.targetSpeed = 2 ∧ b.originalSpeed = 1 ∧ b.targetSpeed = 2 ∧
    speedCommands s.sh.trace = [.client 0, .client 1] ∧ s.sh.world.line.speed = 2 := by
  have h1 := execs_sound (S := vent) (cmds := [.arrive (.setSpeed 0 true), .arrive (.setSpeed 0 true)] ++
    steps 24 (.client 0)) (fun _ _ => trivial) (.start (s₀ := Sys.initial (ventStart 1))) rfl
  have h2 := h1.step (.environment
    { speed := 2, comfort := 82, mute := true, last := frame 0x0B [], took := false } 5
    ⟨false, true, rfl⟩)
  have h3 := execs_sound (S := vent) (cmds := steps 9 (.client 0)) (fun _ _ => trivial) h2 rfl
  have h4 := h3.step (.environment
    { speed := 2, comfort := 82, mute := false, last := frame 0xCD [], took := false } 5
    ⟨false, false, rfl⟩)
  have h5 := execs_sound (S := vent) (cmds := steps 35 (.client 1)) (fun _ _ => trivial) h4 rfl
  exact ⟨_, _, _, h5, rfl, rfl, rfl, rfl, rfl, rfl, rfl, rfl, rfl, rfl⟩

end Comfo.Props
