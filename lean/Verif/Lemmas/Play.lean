import Verif.Props.Prompt
/-!
Helper definitions: executions along a given schedule with pauses, and tests that nobody dawdles and nobody is
overtaken in them.
-/
namespace Comfo.Play
open Spec Props Pace

/-- A step of a schedule: something is done, or time passes. -/
inductive Beat
  | act (c : Cmd)
  | rest (ns : Nat)

def beat (S : Setup σ) : Beat → Sys σ → Option (Sys σ)
  | .act c, s => Sys.exec1 S c s
  | .rest ns, s => some { s with sh := { s.sh with
      world := { s.sh.world with clock := s.sh.world.clock + (ns : Int) } } }

theorem beat_step {S : Setup σ} {b : Beat} {s s' : Sys σ} (hS : ∀ c, b = .act (.arrive c) → S.calls c)
    (he : ∀ l, S.env l l) (h : beat S b s = some s') : Step S s s' := by
  cases b with
  | act c => exact exec1_sound (fun d hd => hS d (hd ▸ rfl)) h
  | rest ns => cases h; exact .environment _ ns (he _)

def beats (S : Setup σ) : List Beat → Sys σ → Option (Sys σ)
  | [], s => some s
  | b :: bs, s => (beat S b s).bind (beats S bs)

/-- The schedule, then nothing. -/
def play (S : Setup σ) (bs : List Beat) (s : Sys σ) (n : Nat) : Sys σ := (beats S (bs.take n) s).getD s

/-! ## What one sees of a state -/

/-- What one sees of a goroutine: the lock it is about to take, if it is about to read from the line, if it can go on
(or perhaps can), how much it has done. -/
structure Info where
  asks : Option (Lock × Bool)
  reads : Bool
  can : Bool
  count : Nat
  deriving DecidableEq, Repr

structure Glimpse where
  clock : Int
  worker : Info
  clients : List Info
  deriving DecidableEq, Repr

def Glimpse.of (g : Glimpse) : Tid → Option Info
  | .worker => some g.worker
  | .client i => g.clients[i]?

def _root_.Comfo.Prog.asks : Prog α → Option (Lock × Bool)
  | .lock l _ => some (l, true)
  | .rlock l _ => some (l, false)
  | _ => none

def _root_.Comfo.Prog.can (held : List Held) : Prog α → Bool
  | .ret _ | .panic => false
  | .lock l _ => held.all (·.lock ≠ l)
  | .rlock l _ => held.all fun h => h.lock = l → h.excl = false
  | _ => true

def info (sh : Shared σ) (t : Tid) (p : Prog α) : Info where
  asks := p.asks
  reads := p.isRead
  can := p.can sh.held
  count := (actsOf t sh.trace).length

def infos (sh : Shared σ) (i : Nat) : List Client → List Info
  | [] => []
  | c :: cs => info sh (.client i) c.prog :: infos sh (i + 1) cs

def glimpse (s : Sys σ) : Glimpse where
  clock := s.sh.world.clock
  worker := info s.sh .worker s.worker
  clients := infos s.sh 0 s.clients

theorem infos_get (sh : Shared σ) (cs : List Client) (i j : Nat) :
    (infos sh i cs)[j]? = (cs[j]?).map fun c => info sh (.client (i + j)) c.prog := by
  induction cs generalizing i j with
  | nil => rfl
  | cons c cs ih =>
    cases j with
    | zero => rfl
    | succ j =>
      simp only [infos, List.getElem?_cons_succ, ih]
      rw [show i + 1 + j = i + (j + 1) by omega]

theorem of_client (s : Sys σ) (i : Nat) :
    (glimpse s).of (.client i) = (s.clients[i]?).map fun c => info s.sh (.client i) c.prog := by
  show (infos s.sh 0 s.clients)[i]? = _
  rw [infos_get, Nat.zero_add]

/-- What a goroutine that is about to do `a` looks like. -/
theorem of_poised {s : Sys σ} {t : Tid} {a : Act} (h : Poised s t a) :
    ∃ x, (glimpse s).of t = some x ∧ x.count = (actsOf t s.sh.trace).length ∧
      (∀ δ, (if x.reads then 1000000000 + δ else δ) ≤ lasting δ a) ∧
      ∀ l b, a = taking l b → x.asks = some (l, b) := by
  have key : ∀ {α : Type} {p q : Prog α}, p.Next a q →
      (∀ δ, (if p.isRead then 1000000000 + δ else δ) ≤ lasting δ a) ∧ ∀ l b, a = taking l b → p.asks = some (l, b) := by
    intro α p q hn
    refine ⟨?_, ?_⟩
    · intro δ
      cases hn <;> simp [Comfo.Prog.isRead, lasting]
    · rintro l b rfl
      cases b <;> cases hn <;> rfl
  cases t with
  | worker =>
    obtain ⟨p, hn⟩ := h
    exact ⟨_, rfl, rfl, key hn⟩
  | client i =>
    obtain ⟨c, p, hc, hn⟩ := h
    exact ⟨_, by rw [of_client, hc]; rfl, rfl, key hn⟩

theorem poised_of {s : Sys σ} {t : Tid} {x : Info} {l : Lock} {b : Bool} (h : (glimpse s).of t = some x)
    (ha : x.asks = some (l, b)) : Poised s t (taking l b) ∧ x.count = (actsOf t s.sh.trace).length := by
  have key : ∀ {α : Type} {p : Prog α}, p.asks = some (l, b) → ∃ q, p.Next (taking l b) q := by
    intro α p hp
    unfold Comfo.Prog.asks at hp
    split at hp <;> cases hp
    · exact ⟨_, .lock⟩
    · exact ⟨_, .rlock⟩
  cases t with
  | worker =>
    cases h
    exact ⟨key ha, rfl⟩
  | client i =>
    rw [of_client] at h
    cases hc : s.clients[i]? with
    | none => rw [hc] at h; cases h
    | some c =>
      rw [hc] at h; cases h
      obtain ⟨q, hq⟩ := key ha
      exact ⟨⟨c, q, hc, hq⟩, rfl⟩

/-- Who can go on looks like it. -/
theorem of_moves {L : Line σ} {s s' : Sys σ} {t : Tid} (h : Moves L t s s') :
    ∃ x, (glimpse s).of t = some x ∧ x.can = true := by
  obtain ⟨hw, b, hb⟩ := h
  have tail : ∀ {x : Tid} {c : Act}, s.sh.trace ++ [(x, c)] = s.sh.trace ++ [(t, b)] → x = t := by
    intro x c h
    have := List.append_cancel_left h
    cases this; rfl
  have key : ∀ {α : Type} {p q : Prog α} {a : Act} {u : Tid} {sh : Shared σ}, p.Next a q →
      Acts L u a s.sh sh → p.can s.sh.held = true := by
    intro α p q a u sh hn ha
    cases hn <;> first
      | rfl
      | (cases ha with
          | lock hl => simpa [Comfo.Prog.can] using hl)
      | (cases ha with
          | rlock hl => exact List.all_eq_true.2 fun h hh => decide_eq_true (hl h hh))
  cases hw with
  | client i c a p sh hi hn ha =>
    have hb : sh.trace = s.sh.trace ++ [(t, b)] := hb
    rw [acts_trace ha] at hb
    cases tail hb
    exact ⟨_, by rw [of_client, hi]; rfl, key hn ha⟩
  | worker a p sh hn ha =>
    have hb : sh.trace = s.sh.trace ++ [(t, b)] := hb
    rw [acts_trace ha] at hb
    cases tail hb
    exact ⟨_, rfl, key hn ha⟩
  | flush i c v p hi hn hwk =>
    cases tail hb
    refine ⟨_, by rw [of_client, hi]; rfl, ?_⟩
    show Comfo.Prog.can _ c.prog = true
    revert hn
    generalize c.prog = q
    intro hn
    cases hn; rfl
  | flushed i c v p q hi hn hwk =>
    have := congrArg List.length hb
    simp at this

/-! ## The tests -/

/-- What one sees along a schedule. -/
def trail (S : Setup σ) : List Beat → Sys σ → List Glimpse
  | [], s => [glimpse s]
  | b :: bs, s => glimpse s :: match beat S b s with
    | none => []
    | some s' => trail S bs s'

/-- From `g` on, until `t` does something or cannot go on, no more time passes than it has. -/
def patient (δ : Nat) (t : Tid) (g : Glimpse) : List Glimpse → Bool
  | h :: h' :: rest =>
    match g.of t, h.of t with
    | some x, some y =>
      if y.can && x.count == y.count then
        decide (h'.clock ≤ g.clock + ((if x.reads then 1000000000 + δ else δ : Nat) : Int)) &&
          patient δ t g (h' :: rest)
      else true
    | _, _ => true
  | _ => true

def goroutines (g : Glimpse) : List Tid := .worker :: (List.range g.clients.length).map .client

def promptB (δ : Nat) : List Glimpse → Bool
  | [] => true
  | g :: gs => (goroutines g).all (fun t => patient δ t g (g :: gs)) && promptB δ gs

/-- As long as `t` has waited for lock `l`, so has `u`. -/
def before (t u : Tid) (l : Lock) (x b : Bool) (n m : Nat) : List Glimpse → Bool
  | [] => true
  | g :: past =>
    match g.of t with
    | some y =>
      if y.asks == some (l, x) && y.count == n then
        (match g.of u with
          | some z => z.asks == some (l, b) && z.count == m
          | none => false) && before t u l x b n m past
      else true
    | none => true

/-- If a lock is taken between `g` and `h`, then by one who has waited long enough. -/
def fair (g h : Glimpse) (past : List Glimpse) : Bool :=
  (goroutines g).all fun u =>
    match g.of u, h.of u with
    | some z, some z' =>
      if z.count == z'.count then true
      else match z.asks with
        | none => true
        | some (l, b) => (goroutines g).all fun t =>
          match g.of t with
          | some y => match y.asks with
            | some (l', x) => if t == u || l' != l || !(b || x) then true
              else before t u l x b y.count z.count (g :: past)
            | none => true
          | none => true
    | _, _ => true

def queuedB (past : List Glimpse) : List Glimpse → Bool
  | g :: h :: rest => fair g h past && queuedB (g :: past) (h :: rest)
  | _ => true

/-! ## The tests are right -/

variable {S : Setup σ} {bs : List Beat} {s : Sys σ}

theorem beats_take (h : (beats S bs s).isSome = true) (n : Nat) : (beats S (bs.take n) s).isSome = true := by
  induction bs generalizing s n with
  | nil => rw [List.take_nil]; exact h
  | cons b bs ih =>
    cases n with
    | zero => rfl
    | succ n =>
      simp only [List.take_succ_cons, beats] at h ⊢
      cases hb : beat S b s with
      | none => rw [hb] at h; cases h
      | some s' => rw [hb] at h; exact ih h n

theorem play_succ {b : Beat} {s' : Sys σ} (h : (beats S bs s').isSome = true) (hb : beat S b s = some s') (n : Nat) :
    play S (b :: bs) s (n + 1) = play S bs s' n := by
  unfold play
  simp only [List.take_succ_cons, beats, hb, Option.bind_some]
  have := beats_take h n
  cases hx : beats S (bs.take n) s' with
  | none => rw [hx] at this; cases this
  | some _ => rfl

theorem play_step (he : ∀ l, S.env l l) (hS : ∀ c, .act (.arrive c) ∈ bs → S.calls c)
    (h : (beats S bs s).isSome = true) (n : Nat) :
    Step S (play S bs s n) (play S bs s (n + 1)) ∨ play S bs s (n + 1) = play S bs s n := by
  induction bs generalizing s n with
  | nil => right; simp [play, beats]
  | cons b bs ih =>
    simp only [beats] at h
    cases hb : beat S b s with
    | none => rw [hb] at h; cases h
    | some s' =>
      rw [hb] at h
      have h : (beats S bs s').isSome = true := h
      rw [play_succ h hb]
      cases n with
      | zero => exact .inl (beat_step (fun c hc => hS c (hc ▸ List.mem_cons_self)) he hb)
      | succ n =>
        rw [play_succ h hb]
        exact ih (fun c hc => hS c (List.mem_cons_of_mem _ hc)) h n

theorem play_beat (h : (beats S bs s).isSome = true) {n : Nat} {b : Beat} (hb : bs[n]? = some b) :
    beat S b (play S bs s n) = some (play S bs s (n + 1)) := by
  induction bs generalizing s n with
  | nil => cases hb
  | cons b' bs ih =>
    simp only [beats] at h
    cases hx : beat S b' s with
    | none => rw [hx] at h; cases h
    | some s' =>
      rw [hx] at h
      have h : (beats S bs s').isSome = true := h
      rw [play_succ h hx]
      cases n with
      | zero => cases hb; exact hx
      | succ n =>
        rw [play_succ h hx]
        exact ih h hb

theorem play_end {n : Nat} (h : bs.length ≤ n) : play S bs s n = play S bs s bs.length := by
  unfold play
  rw [List.take_of_length_le h, List.take_length]

theorem trail_get (h : (beats S bs s).isSome = true) {n : Nat} (hn : n ≤ bs.length) :
    (trail S bs s)[n]? = some (glimpse (play S bs s n)) := by
  induction bs generalizing s n with
  | nil =>
    have : n = 0 := by simpa using hn
    subst this
    rfl
  | cons b bs ih =>
    simp only [beats] at h
    cases hb : beat S b s with
    | none => rw [hb] at h; cases h
    | some s' =>
      rw [hb] at h
      have h : (beats S bs s').isSome = true := h
      cases n with
      | zero => rfl
      | succ n =>
        rw [play_succ h hb]
        simp only [trail, hb, List.getElem?_cons_succ]
        exact ih h (by simpa using hn)

theorem mem_goroutines {g : Glimpse} {t : Tid} {x : Info} (h : g.of t = some x) : t ∈ goroutines g := by
  cases t with
  | worker => exact List.mem_cons_self
  | client i =>
    refine List.mem_cons_of_mem _ (List.mem_map.2 ⟨i, List.mem_range.2 ?_, rfl⟩)
    exact (List.getElem?_eq_some_iff.1 h).1

theorem patient_get {δ : Nat} {t : Tid} {g : Glimpse} {x : Info} (hx : g.of t = some x) : ∀ {n : Nat}
    {hs : List Glimpse}, patient δ t g hs = true →
    (∀ k, k ≤ n → ∃ h y, hs[k]? = some h ∧ h.of t = some y ∧ y.can = true ∧ x.count = y.count) →
    ∀ h', hs[n + 1]? = some h' → h'.clock ≤ g.clock + ((if x.reads then 1000000000 + δ else δ : Nat) : Int) := by
  intro n
  induction n with
  | zero =>
    intro hs hp hk h' hh
    obtain ⟨h, y, e1, e2, e3, e4⟩ := hk 0 (Nat.le_refl _)
    match hs, e1, hh with
    | a :: b :: rest, e1, hh =>
      cases e1; cases hh
      simp only [patient, hx, e2, e3, e4, beq_self_eq_true, Bool.and_self, if_true, Bool.and_eq_true,
        decide_eq_true_eq] at hp
      exact hp.1
  | succ n ih =>
    intro hs hp hk h' hh
    obtain ⟨h, y, e1, e2, e3, e4⟩ := hk 0 (Nat.zero_le _)
    match hs, e1, hh with
    | a :: b :: rest, e1, hh =>
      cases e1
      simp only [patient, hx, e2, e3, e4, beq_self_eq_true, Bool.and_self, if_true, Bool.and_eq_true,
        decide_eq_true_eq] at hp
      exact ih hp.2 (fun k hk' => hk (k + 1) (by omega)) h' hh

theorem promptB_get {δ : Nat} : ∀ {gs : List Glimpse}, promptB δ gs = true → ∀ {m : Nat} {g : Glimpse},
    gs[m]? = some g → ∀ t ∈ goroutines g, patient δ t g (gs.drop m) = true := by
  intro gs
  induction gs with
  | nil => intro _ m g h; cases h
  | cons a gs ih =>
    intro hp m g hg t ht
    simp only [promptB, Bool.and_eq_true] at hp
    cases m with
    | zero => cases hg; exact List.all_eq_true.1 hp.1 t ht
    | succ m => exact ih hp.2 hg t ht

/-- A schedule that passes the test. -/
structure Fine (S : Setup σ) (bs : List Beat) (s : Sys σ) (δ : Nat) : Prop where
  env : ∀ l, S.env l l
  calls : ∀ c, .act (.arrive c) ∈ bs → S.calls c
  runs : (beats S bs s).isSome = true
  prompt : promptB δ (trail S bs s) = true
  queued : queuedB [] (trail S bs s) = true

theorem play_prompt {δ : Nat} (F : Fine S bs s δ) : Prompt S.line (play S bs s) δ := by
  intro t m n hmn hmv hid a ha
  obtain ⟨x, x1, x2, x3, -⟩ := of_poised ha
  have x3 := x3 δ
  rcases Nat.lt_or_ge m bs.length with hm | hm
  · -- the last step that counts
    suffices H : ∀ n', m ≤ n' → n' ≤ n → n' < bs.length → (play S bs s (n' + 1)).sh.world.clock ≤
        (play S bs s m).sh.world.clock + ((if x.reads then 1000000000 + δ else δ : Nat) : Int) by
      rcases Nat.lt_or_ge n bs.length with hn | hn
      · have := H n hmn (Nat.le_refl _) hn
        omega
      · have := H (bs.length - 1) (by omega) (by omega) (by omega)
        rw [show bs.length - 1 + 1 = bs.length by omega, ← play_end (n := n + 1) (by omega)] at this
        omega
    intro n' h1 h2 h3
    have hpat := promptB_get F.prompt (trail_get F.runs (by omega : m ≤ bs.length)) t (mem_goroutines x1)
    refine patient_get x1 hpat (n := n' - m) (fun k hk => ?_) (glimpse (play S bs s (n' + 1))) ?_
    · obtain ⟨s', hs'⟩ := hmv (m + k) (by omega) (by omega)
      obtain ⟨y, y1, y2⟩ := of_moves hs'
      refine ⟨_, y, by rw [List.getElem?_drop]; exact trail_get F.runs (by omega), y1, y2, ?_⟩
      have hst : Still (play S bs s) t m (m + k) := by
        have grow : ∀ {i j}, i ≤ j → (actsOf t (play S bs s i).sh.trace).length ≤
            (actsOf t (play S bs s j).sh.trace).length ∧
            actsOf t (play S bs s i).sh.trace <+: actsOf t (play S bs s j).sh.trace := by
          intro i j hij
          induction hij with
          | refl => exact ⟨Nat.le_refl _, List.prefix_refl _⟩
          | @step j _ ih =>
            rcases step_acts (play_step F.env F.calls F.runs j) t with e | ⟨b, -, e⟩
            · rw [e]; exact ih
            · rw [e]
              have := ih.2.trans (List.prefix_append _ [b])
              exact ⟨this.length_le, this⟩
        have a1 := grow (i := m) (j := m + k) (by omega)
        have a2 := (grow (i := m + k) (j := n) (by omega)).1
        rw [show actsOf t (play S bs s n).sh.trace = _ from hid] at a2
        exact (a1.2.eq_of_length (by omega)).symm
      have cnt : y.count = (actsOf t (play S bs s (m + k)).sh.trace).length := by
        cases t with
        | worker => cases y1; rfl
        | client i =>
          rw [of_client] at y1
          cases hc : (play S bs s (m + k)).clients[i]? with
          | none => rw [hc] at y1; cases y1
          | some c => rw [hc] at y1; cases y1; rfl
      rw [x2, cnt, show actsOf t (play S bs s (m + k)).sh.trace = _ from hst]
    · rw [List.getElem?_drop, show m + (n' - m + 1) = n' + 1 by omega]
      exact trail_get F.runs (by omega)
  · rw [play_end hm, play_end (n := n + 1) (by omega)]
    omega

theorem queuedB_get : ∀ {gs : List Glimpse} {past : List Glimpse}, queuedB past gs = true → ∀ {n : Nat} {g h : Glimpse},
    gs[n]? = some g → gs[n + 1]? = some h → fair g h ((gs.take n).reverse ++ past) = true := by
  intro gs
  induction gs with
  | nil => intro _ _ n g h e; cases e
  | cons a gs ih =>
    intro past hq n g h e1 e2
    cases gs with
    | nil => cases e2
    | cons b gs =>
      simp only [queuedB, Bool.and_eq_true] at hq
      cases n with
      | zero => cases e1; cases e2; exact hq.1
      | succ n =>
        have := ih hq.2 e1 e2
        rw [List.take_succ_cons, List.reverse_cons, List.append_assoc]
        exact this

theorem before_get {t u : Tid} {l : Lock} {x b : Bool} {cn cm : Nat} : ∀ {m : Nat} {gs : List Glimpse},
    before t u l x b cn cm gs = true →
    (∀ k, k ≤ m → ∃ g y, gs[k]? = some g ∧ g.of t = some y ∧ y.asks = some (l, x) ∧ y.count = cn) →
    ∃ g z, gs[m]? = some g ∧ g.of u = some z ∧ z.asks = some (l, b) ∧ z.count = cm := by
  intro m
  induction m with
  | zero =>
    intro gs hb hk
    obtain ⟨g, y, e1, e2, e3, e4⟩ := hk 0 (Nat.le_refl _)
    match gs, e1 with
    | a :: gs, e1 =>
      cases e1
      simp only [before, e2, e3, e4, beq_self_eq_true, Bool.and_self, if_true, Bool.and_eq_true] at hb
      have hb := hb.1
      split at hb
      · rename_i z hz
        simp only [Bool.and_eq_true, beq_iff_eq] at hb
        exact ⟨_, z, rfl, hz, hb.1, hb.2⟩
      · cases hb
  | succ m ih =>
    intro gs hb hk
    obtain ⟨g, y, e1, e2, e3, e4⟩ := hk 0 (Nat.zero_le _)
    match gs, e1 with
    | a :: gs, e1 =>
      cases e1
      simp only [before, e2, e3, e4, beq_self_eq_true, Bool.and_self, if_true, Bool.and_eq_true] at hb
      exact ih hb.2 fun k hk' => hk (k + 1) (by omega)

theorem play_run {w : World σ} {δ : Nat} (F : Fine S bs (Sys.initial w) δ) :
    Execution S w (play S bs (Sys.initial w)) where
  start := rfl
  next := play_step F.env F.calls F.runs

theorem play_queued {w : World σ} {δ : Nat} (F : Fine S bs (Sys.initial w) δ) :
    Queued (play S bs (Sys.initial w)) := by
  intro l x t m n hmn ht hid u b hb hne htr
  have hf := play_run F
  generalize hs : Sys.initial w = s at *
  have hn : n < bs.length := by
    rcases Nat.lt_or_ge n bs.length with h | h
    · exact h
    · rw [play_end h, play_end (n := n + 1) (by omega)] at htr
      have := congrArg List.length htr
      simp at this
  obtain ⟨a, hu, hua⟩ : ∃ a, Poised (play S bs s n) u a ∧ a = taking l b := by
    rcases step_acts (hf.next n) u with e | ⟨a, h1, e⟩
    · rw [htr, actsOf_append, acts_one, if_pos rfl] at e
      have := congrArg List.length e
      simp at this
    · rw [htr, actsOf_append, acts_one, if_pos rfl] at e
      have := List.append_cancel_left e
      cases this
      exact ⟨_, h1, rfl⟩
  subst hua
  obtain ⟨z, z1, z2, -, z3⟩ := of_poised hu
  have z3 := z3 l b rfl
  have g1 := trail_get F.runs (Nat.le_of_lt hn)
  have g2 := trail_get F.runs (n := n + 1) hn
  have hfair := queuedB_get F.queued g1 g2
  have hcount : ∀ z', (glimpse (play S bs s (n + 1))).of u = some z' → z'.count = z.count + 1 := by
    intro z' hz'
    have cnt : z'.count = (actsOf u (play S bs s (n + 1)).sh.trace).length := by
      cases u with
      | worker => cases hz'; rfl
      | client i =>
        rw [of_client] at hz'
        cases hc : (play S bs s (n + 1)).clients[i]? with
        | none => rw [hc] at hz'; cases hz'
        | some c => rw [hc] at hz'; cases hz'; rfl
    rw [cnt, htr, actsOf_append, acts_one, if_pos rfl, z2]
    simp
  obtain ⟨z', hz'⟩ : ∃ z', (glimpse (play S bs s (n + 1))).of u = some z' := by
    cases u with
    | worker => exact ⟨_, rfl⟩
    | client i =>
      obtain ⟨c, p, hc, -⟩ := hu
      obtain ⟨d, hd, -⟩ := call_stays (hf.next n) hc
      exact ⟨_, by rw [of_client, hd]; rfl⟩
  have ht' := poised_idle hf hmn hid ht
  obtain ⟨y, y1, y2, -, y3⟩ := of_poised ht'
  have y3 := y3 l x rfl
  have h1 := List.all_eq_true.1 hfair u (mem_goroutines z1)
  simp only [z1, hz', hcount z' hz', z3] at h1
  rw [if_neg (by simp)] at h1
  have h2 := List.all_eq_true.1 h1 t (mem_goroutines y1)
  simp only [y1, y3] at h2
  rw [if_neg (by simp [hb, Ne.symm hne])] at h2
  have hL : ∀ k, k ≤ n → ((glimpse (play S bs s n) :: (((trail S bs s).take n).reverse ++ [])))[k]? =
      some (glimpse (play S bs s (n - k))) := by
    intro k hk
    have hlen : n ≤ (trail S bs s).length := Nat.le_of_lt (List.getElem?_eq_some_iff.1 g1).1
    cases k with
    | zero => rfl
    | succ k =>
      rw [List.getElem?_cons_succ, List.append_nil, List.getElem?_reverse (by rw [List.length_take]; omega),
        List.length_take, Nat.min_eq_left hlen, List.getElem?_take_of_lt (by omega),
        show n - 1 - k = n - (k + 1) by omega]
      exact trail_get F.runs (by omega)
  obtain ⟨g, v, v1, v2, v3, v4⟩ := before_get (m := n - m) h2 fun k hk => by
    have hst := idle_part hf hid (k := n - k) (by omega) (by omega)
    obtain ⟨y', e1, e2, -, e3⟩ := of_poised (poised_idle hf (by omega) hst.1 ht)
    refine ⟨_, y', hL k (by omega), e1, e3 l x rfl, ?_⟩
    rw [e2, y2]
    exact congrArg List.length hst.2.symm
  rw [hL _ (by omega), show n - (n - m) = m by omega] at v1
  cases v1
  obtain ⟨p1, p2⟩ := poised_of v2 v3
  refine ⟨p1, ?_⟩
  exact ((acts_grow hf u hmn).eq_of_length (by rw [← p2, v4, z2])).symm

end Comfo.Play
