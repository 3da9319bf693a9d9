import Verif.Spec.Sync
import Verif.Lemmas.Server
/-!
Helper lemmas: reasoning about all interleavings. Every goroutine carries a ghost state of a type
`γ` that its actions update; `Rules` say what an action must satisfy (`must`), what may be assumed
of its result (`may`), and how it changes the ghost state (`post`). `Prog.Ok` says that a program
keeps to the rules along every path. `Scheme.sound` turns this into an invariant of the system.
-/
namespace Comfo

structure Rules (γ : Type) where
  may : γ → Act → Prop := fun _ _ => True
  must : γ → Act → Prop
  post : γ → Act → γ

/-- The program keeps to the rules, and `Q` holds when it returns. -/
def Prog.Ok (R : Rules γ) (Q : γ → α → Prop) : Prog α → γ → Prop
  | .ret a, g => Q g a
  | .panic, _ => False
  | .lock l k, g => R.may g (.lock l) → R.must g (.lock l) ∧ k.Ok R Q (R.post g (.lock l))
  | .unlock l k, g => R.may g (.unlock l) → R.must g (.unlock l) ∧ k.Ok R Q (R.post g (.unlock l))
  | .rlock l k, g => R.may g (.rlock l) → R.must g (.rlock l) ∧ k.Ok R Q (R.post g (.rlock l))
  | .runlock l k, g =>
    R.may g (.runlock l) → R.must g (.runlock l) ∧ k.Ok R Q (R.post g (.runlock l))
  | .now k, g => ∀ t, R.may g (.now t) → R.must g (.now t) ∧ (k t).Ok R Q (R.post g (.now t))
  | .sleep ns k, g => R.may g (.sleep ns) → R.must g (.sleep ns) ∧ k.Ok R Q (R.post g (.sleep ns))
  | .write bs k, g => ∀ r, R.may g (.wrote bs r) →
    R.must g (.wrote bs r) ∧ (k r).Ok R Q (R.post g (.wrote bs r))
  | .read e k, g => ∀ r, R.may g (.got e r) →
    R.must g (.got e r) ∧ (k r).Ok R Q (R.post g (.got e r))
  | .load id k, g => ∀ c, R.may g (.load id c) →
    R.must g (.load id c) ∧ (k c).Ok R Q (R.post g (.load id c))
  | .store id e k, g =>
    R.may g (.store id e) → R.must g (.store id e) ∧ k.Ok R Q (R.post g (.store id e))
  | .note id t k, g => R.may g (.note id t) → R.must g (.note id t) ∧ k.Ok R Q (R.post g (.note id t))
  | .sendFlush t k, g =>
    R.may g (.sendFlush t) → R.must g (.sendFlush t) ∧ k.Ok R Q (R.post g (.sendFlush t))
  | .recvFlushed k, g => ∀ b, R.may g (.recvFlushed b) →
    R.must g (.recvFlushed b) ∧ (k b).Ok R Q (R.post g (.recvFlushed b))
  | .sendFlushed b k, g =>
    R.may g (.sendFlushed b) → R.must g (.sendFlushed b) ∧ k.Ok R Q (R.post g (.sendFlushed b))

variable {γ : Type} {R : Rules γ}

theorem ok_next {Q : γ → α → Prop} {p q : Prog α} {g : γ} {a : Act} (h : p.Ok R Q g)
    (hn : p.Next a q) (hm : R.may g a) : R.must g a ∧ q.Ok R Q (R.post g a) := by
  cases hn <;> first | exact h hm | exact h _ hm

theorem next_recv {p q : Prog α} {b : Bool} (h : p.Next (.recvFlushed b) q) :
    ∃ k, p = .recvFlushed k ∧ q = k b := by
  cases h; exact ⟨_, rfl, rfl⟩

theorem ok_bind {Q : γ → β → Prop} {p : Prog α} {f : α → Prog β} {g : γ}
    (h : p.Ok R (fun g a => (f a).Ok R Q g) g) : (p.bind f).Ok R Q g := by
  induction p generalizing g with
  | ret a => exact h
  | panic => exact h
  | now k ih => exact fun t hm => ⟨(h t hm).1, ih _ (h t hm).2⟩
  | write bs k ih => exact fun t hm => ⟨(h t hm).1, ih _ (h t hm).2⟩
  | read bs k ih => exact fun t hm => ⟨(h t hm).1, ih _ (h t hm).2⟩
  | load bs k ih => exact fun t hm => ⟨(h t hm).1, ih _ (h t hm).2⟩
  | recvFlushed k ih => exact fun t hm => ⟨(h t hm).1, ih _ (h t hm).2⟩
  | _ => rename_i ih; exact fun hm => ⟨(h hm).1, ih (h hm).2⟩

theorem ok_map {Q : γ → β → Prop} {p : Prog α} {f : α → β} {g : γ}
    (h : p.Ok R (fun g a => Q g (f a)) g) : (p.map f).Ok R Q g := ok_bind h

theorem ok_mono {Q Q' : γ → α → Prop} {p : Prog α} {g : γ} (h : p.Ok R Q g)
    (hQ : ∀ g a, Q g a → Q' g a) : p.Ok R Q' g := by
  induction p generalizing g with
  | ret a => exact hQ _ _ h
  | panic => exact h
  | now k ih => exact fun t hm => ⟨(h t hm).1, ih _ (h t hm).2⟩
  | write bs k ih => exact fun t hm => ⟨(h t hm).1, ih _ (h t hm).2⟩
  | read bs k ih => exact fun t hm => ⟨(h t hm).1, ih _ (h t hm).2⟩
  | load bs k ih => exact fun t hm => ⟨(h t hm).1, ih _ (h t hm).2⟩
  | recvFlushed k ih => exact fun t hm => ⟨(h t hm).1, ih _ (h t hm).2⟩
  | _ => rename_i ih; exact fun hm => ⟨(h hm).1, ih (h hm).2⟩

/-! ## Getters -/

theorem ok_getter {g : γ} {gr : GetRequest} {zero : α'} {β : Type}
    {assert : Response → Option α'} {Q : γ → α' × Option Err → Prop}
    (unm : List UInt8 → Go β) (con : β → Response) (proj : β → α')
    (hd : ∀ pl, decodeResponse { command := gr.code + 1, data := pl } = (unm pl).map (some ∘ con))
    (hu : ∀ pl, unm pl ≠ .panic) (ha : ∀ b, assert (con b) = some (proj b))
    (h : (queryPacketP { command := gr.code, expect := true }).Ok R (fun g' r =>
      (r.2 = none → r.1.command = gr.code + 1) ∧
      (∀ v e', (e' = none ↔ r.2 = none ∧ ∃ b, unm r.1.data = .ret b none) →
        (∀ b, r.2 = none → unm r.1.data = .ret b none → v = proj b) → Q g' (v, e'))) g) :
    (getterP gr zero assert).Ok R Q g := by
  unfold getterP
  refine ok_bind (ok_mono h ?_)
  rintro g' ⟨q, e⟩ ⟨hc, hQ⟩
  cases e with
  | some e => exact hQ zero (some e) (by simp) (by simp)
  | none =>
    have hdq : decodeResponse q = (unm q.data).map (some ∘ con) := by
      rw [← hd]; unfold decodeResponse; rw [hc rfl]
    simp only
    rw [hdq]
    match hu2 : unm q.data with
    | .panic => exact absurd hu2 (hu _)
    | .ret b (some e) => exact hQ zero (some e) (by simp [hu2]) (by simp [hu2])
    | .ret b none =>
      simp only [Go.map, Function.comp, ha]
      exact hQ _ none (by simp [hu2]) (by simp [hu2])

open Spec in
/-- A getter keeps to the rules if its query does. -/
theorem ok_fetch {g : γ} (id : CacheId) {Q : γ → CVal id × Option Err → Prop}
    (h : (queryPacketP { command := requestCode id, expect := true }).Ok R (fun g' r =>
      (r.2 = none → r.1.command = requestCode id + 1) ∧
      (∀ v e', (e' = none ↔ r.2 = none ∧ (decode id r.1.data).isSome) →
        (e' = none → decode id r.1.data = some v) → Q g' (v, e'))) g) : id.fetch.Ok R Q g := by
  have fin : ∀ {β : Type} (u : Go β) (d : Option β) (v : β) (e e' : Option Err),
      d = okVal u →
      (e' = none ↔ e = none ∧ ∃ b, u = .ret b none) → (∀ b, e = none → u = .ret b none → v = b) →
      (e' = none ↔ e = none ∧ d.isSome) ∧ (e' = none → d = some v) := by
    intro β u d v e e' hd h1 h2
    subst hd
    constructor
    · rw [h1]
      apply and_congr_right
      intro _
      constructor
      · rintro ⟨b, rfl⟩; rfl
      · intro h
        match u, h with
        | .ret b none, _ => exact ⟨b, rfl⟩
    · intro he
      obtain ⟨he, b, hb⟩ := h1.1 he
      rw [h2 b he hb, hb]; rfl
  cases id with
  | boot =>
    refine ok_getter (Q := Q) BootInfo.unmarshalBinary .bootInfo id (fun _ => rfl)
      Props.bootInfo_ne_panic (fun _ => rfl) (ok_mono h fun g' r hr => ⟨hr.1, fun v e' h1 h2 => ?_⟩)
    have := fin _ (decode .boot r.1.data) v r.2 e' rfl h1 h2
    exact hr.2 v e' this.1 this.2
  | bypass =>
    refine ok_getter (Q := Q) Bypass.unmarshalBinary .bypass id (fun _ => rfl)
      Props.bypass_ne_panic (fun _ => rfl) (ok_mono h fun g' r hr => ⟨hr.1, fun v e' h1 h2 => ?_⟩)
    have := fin _ (decode .bypass r.1.data) v r.2 e' rfl h1 h2
    exact hr.2 v e' this.1 this.2
  | temps =>
    refine ok_getter (Q := Q) Temps.unmarshalBinary .temps id (fun _ => rfl)
      Props.temps_ne_panic (fun _ => rfl) (ok_mono h fun g' r hr => ⟨hr.1, fun v e' h1 h2 => ?_⟩)
    have := fin _ (decode .temps r.1.data) v r.2 e' rfl h1 h2
    exact hr.2 v e' this.1 this.2
  | fans =>
    refine ok_getter (Q := Q) Fans.unmarshalBinary .fans id (fun _ => rfl)
      Props.fans_ne_panic (fun _ => rfl) (ok_mono h fun g' r hr => ⟨hr.1, fun v e' h1 h2 => ?_⟩)
    have := fin _ (decode .fans r.1.data) v r.2 e' rfl h1 h2
    exact hr.2 v e' this.1 this.2
  | profiles =>
    refine ok_getter (Q := Q) FanProfiles.unmarshalBinary .fanProfiles id (fun _ => rfl)
      Props.profiles_ne_panic (fun _ => rfl) (ok_mono h fun g' r hr => ⟨hr.1, fun v e' h1 h2 => ?_⟩)
    have := fin _ (decode .profiles r.1.data) v r.2 e' rfl h1 h2
    exact hr.2 v e' this.1 this.2
  | errors =>
    refine ok_getter (Q := Q) Errors.unmarshalBinary .errors id (fun _ => rfl)
      Props.errors_ne_panic (fun _ => rfl) (ok_mono h fun g' r hr => ⟨hr.1, fun v e' h1 h2 => ?_⟩)
    have := fin _ (decode .errors r.1.data) v r.2 e' rfl h1 h2
    exact hr.2 v e' this.1 this.2

/-! ## The system -/

/-- Change the ghost state of one goroutine. -/
def upd (g : Tid → γ) (t : Tid) (x : γ) : Tid → γ := fun u => if u = t then x else g u

@[simp] theorem upd_same (g : Tid → γ) (t : Tid) (x : γ) : upd g t x t = x := if_pos rfl
theorem upd_other (g : Tid → γ) {t u : Tid} (x : γ) (h : u ≠ t) : upd g t x u = g u := if_neg h

/-- A way to prove an invariant `G` of the system. -/
structure Scheme (S : Setup σ) (γ : Type) where
  R : Rules γ
  /-- Holds when a request returns. -/
  Q : Call → γ → Resp → Prop
  /-- The ghost state of a client that has not arrived yet. -/
  unborn : γ
  /-- The ghost state a request starts with. -/
  born : Call → γ
  /-- The ghost state of the waiting worker. -/
  idle : γ
  /-- The ghost state of the worker when it starts a flush. -/
  flushing : Int → γ
  /-- What the ghost state of a request always satisfies. -/
  K : Call → γ → Prop
  k_born : ∀ c, K c (born c)
  k_post : ∀ {c g a}, K c g → K c (R.post g a)
  G : (Tid → γ) → Shared σ → Prop
  ok_call : ∀ c, S.calls c → (c.prog S.cv).Ok R (Q c) (born c)
  ok_tick : ∀ k, (onTick k).Ok R (fun g _ => g = idle) idle
  ok_flush : ∀ t, (flushCaches t).Ok R (fun g _ => g = idle) (flushing t)
  may_act : ∀ {t a g sh sh'}, G g sh → Acts S.line t a sh sh' → R.may (g t) a
  g_act : ∀ {t a g sh sh'}, G g sh → Acts S.line t a sh sh' → R.must (g t) a →
    G (upd g t (R.post (g t) a)) sh'
  g_env : ∀ {g sh line} {ns : Nat}, G g sh → S.env sh.world.line line →
    G g { sh with world := { sh.world with line := line, clock := sh.world.clock + (ns : Int) } }
  g_born : ∀ {g sh c i}, G g sh → S.calls c → g (.client i) = unborn →
    G (upd g (.client i) (born c)) sh
  may_send : ∀ {g sh i t}, G g sh → g .worker = idle → R.may (g (.client i)) (.sendFlush t)
  g_send : ∀ {g sh i t}, G g sh → g .worker = idle → R.must (g (.client i)) (.sendFlush t) →
    G (upd (upd g (.client i) (R.post (g (.client i)) (.sendFlush t))) .worker (flushing t))
      { sh with trace := sh.trace ++ [(.client i, .sendFlush t)] }
  may_answer : ∀ {g sh b}, G g sh → R.may (g .worker) (.sendFlushed b)
  may_recv : ∀ {g sh i b}, G g sh → R.must (g .worker) (.sendFlushed b) →
    (∀ b, R.may (g (.client i)) (.recvFlushed b) → R.must (g (.client i)) (.recvFlushed b)) →
    R.may (g (.client i)) (.recvFlushed b)
  g_recv : ∀ {g sh i b}, G g sh → R.must (g .worker) (.sendFlushed b) →
    R.must (g (.client i)) (.recvFlushed b) →
    G (upd (upd g (.client i) (R.post (g (.client i)) (.recvFlushed b))) .worker
        (R.post (g .worker) (.sendFlushed b)))
      { sh with world := sh.world.log (.answered b)
                trace := sh.trace ++ [(.worker, .sendFlushed b), (.client i, .recvFlushed b)] }

/-- How the trace leads to the present state. -/
structure Scheme.Hist {S : Setup σ} (X : Scheme S γ) (g : Tid → γ) (s : Sys σ) : Prop where
  path : ∀ (i : Nat) (c : Client), s.clients[i]? = some c →
    Spec.Path (c.call.prog S.cv) (Spec.actsOf (.client i) s.sh.trace) c.prog ∧
      g (.client i) = (Spec.actsOf (.client i) s.sh.trace).foldl X.R.post (X.born c.call)
  fresh : ∀ i, s.clients.length ≤ i → Spec.actsOf (.client i) s.sh.trace = []
  job : (s.worker = .ret () ∧ g .worker = X.idle) ∨
    (∃ k pre mid, s.sh.trace = pre ++ mid ∧
      Spec.Path (onTick k) (Spec.actsOf .worker mid) s.worker ∧
      g .worker = (Spec.actsOf .worker mid).foldl X.R.post X.idle) ∨
    (∃ i t pre mid, s.sh.trace = pre ++ (.client i, .sendFlush t) :: mid ∧
      Spec.Path (flushCaches t) (Spec.actsOf .worker mid) s.worker ∧
      g .worker = (Spec.actsOf .worker mid).foldl X.R.post (X.flushing t) ∧
      ((∃ b, .sendFlushed b ∈ Spec.actsOf .worker mid) ∨
        ∀ b, .recvFlushed b ∉ Spec.actsOf (.client i) mid))

/-- The invariant of the whole system. -/
structure Scheme.Inv {S : Setup σ} (X : Scheme S γ) (g : Tid → γ) (s : Sys σ) : Prop where
  call : ∀ (i : Nat) (c : Client), s.clients[i]? = some c → S.calls c.call
  client : ∀ (i : Nat) (c : Client), s.clients[i]? = some c →
    c.prog.Ok X.R (X.Q c.call) (g (.client i)) ∧ X.K c.call (g (.client i))
  worker : s.worker.Ok X.R (fun g _ => g = X.idle) (g .worker)
  unborn : ∀ i, s.clients.length ≤ i → g (.client i) = X.unborn
  glob : X.G g s.sh
  hist : X.Hist g s

theorem setClient_get (s : Sys σ) (i j : Nat) (p : Prog Resp) :
    (s.setClient i p)[j]? =
      if i = j then s.clients[j]?.map (fun c => { c with prog := p }) else s.clients[j]? := by
  unfold Sys.setClient
  rw [List.getElem?_modify]
  by_cases h : i = j <;> simp [h]

theorem setClient_length (s : Sys σ) (i : Nat) (p : Prog Resp) :
    (s.setClient i p).length = s.clients.length := by
  simp [Sys.setClient]

theorem setClient_call {s : Sys σ} {i j : Nat} {p : Prog Resp} {c : Client}
    (h : (s.setClient i p)[j]? = some c) :
    ∃ c', s.clients[j]? = some c' ∧ c'.call = c.call ∧
      (i = j ∧ c.prog = p ∨ i ≠ j ∧ c' = c) := by
  rw [setClient_get] at h
  by_cases e : i = j
  · rw [if_pos e] at h
    match hc : s.clients[j]? with
    | none => simp [hc] at h
    | some c' =>
      simp [hc] at h
      subst h
      exact ⟨c', rfl, rfl, .inl ⟨e, rfl⟩⟩
  · rw [if_neg e] at h
    exact ⟨c, h, rfl, .inr ⟨e, rfl⟩⟩

theorem actsOf_append (t : Tid) (a b : List (Tid × Act)) :
    Spec.actsOf t (a ++ b) = Spec.actsOf t a ++ Spec.actsOf t b := by simp [Spec.actsOf]

theorem acts_trace {L : Line σ} {t : Tid} {a : Act} {sh sh' : Shared σ} (h : Acts L t a sh sh') :
    sh'.trace = sh.trace ++ [(t, a)] := by cases h <;> rfl

theorem acts_not_recv {L : Line σ} {t : Tid} {a : Act} {sh sh' : Shared σ} (h : Acts L t a sh sh')
    (b : Bool) : a ≠ .recvFlushed b := by cases h <;> simp

/-- The clients after client `i` has done `a`. -/
theorem Scheme.hist_client {S : Setup σ} {X : Scheme S γ} {g g' : Tid → γ} {s : Sys σ} {i : Nat}
    {c : Client} {a : Act} {p : Prog Resp} {trace : List (Tid × Act)} (hi : X.Hist g s)
    (hc : s.clients[i]? = some c) (hn : c.prog.Next a p)
    (ht : ∀ j, Spec.actsOf (.client j) trace =
      Spec.actsOf (.client j) s.sh.trace ++ if j = i then [a] else [])
    (hg : ∀ j, g' (.client j) = if j = i then X.R.post (g (.client i)) a else g (.client j)) :
    (∀ (j : Nat) (c' : Client), (s.setClient i p)[j]? = some c' →
      Spec.Path (c'.call.prog S.cv) (Spec.actsOf (.client j) trace) c'.prog ∧
      g' (.client j) = (Spec.actsOf (.client j) trace).foldl X.R.post (X.born c'.call)) ∧
    (∀ j, (s.setClient i p).length ≤ j → Spec.actsOf (.client j) trace = []) := by
  constructor
  · intro j c' h
    obtain ⟨c2, h2, e, h3⟩ := setClient_call h
    have hp := hi.path j c2 h2
    rw [ht, hg]
    rcases h3 with ⟨rfl, rfl⟩ | ⟨hne, rfl⟩
    · rw [if_pos rfl, if_pos rfl, List.foldl_append, ← e]
      have : c2 = c := by simp_all
      refine ⟨hp.1.snoc (this ▸ hn), ?_⟩
      rw [← hp.2]; rfl
    · rw [if_neg (Ne.symm hne), if_neg (Ne.symm hne), List.append_nil]
      exact hp
  · intro j hj
    simp only [setClient_length] at hj
    have : i < s.clients.length := by
      rw [List.getElem?_eq_some_iff] at hc; exact hc.1
    rw [ht, hi.fresh j hj, if_neg (by omega)]; rfl

/-- The worker's part when `ext`, in which the worker does not act and nothing is received, is
added to the trace. -/
theorem Scheme.job_quiet {S : Setup σ} {X : Scheme S γ} {g g' : Tid → γ} {s s' : Sys σ}
    {ext : List (Tid × Act)} (hi : X.Hist g s) (ht : s'.sh.trace = s.sh.trace ++ ext)
    (hg : g' .worker = g .worker) (hw : s'.worker = s.worker)
    (h1 : Spec.actsOf .worker ext = []) (h2 : ∀ j b, .recvFlushed b ∉ Spec.actsOf (.client j) ext) :
    (s'.worker = .ret () ∧ g' .worker = X.idle) ∨
    (∃ k pre mid, s'.sh.trace = pre ++ mid ∧
      Spec.Path (onTick k) (Spec.actsOf .worker mid) s'.worker ∧
      g' .worker = (Spec.actsOf .worker mid).foldl X.R.post X.idle) ∨
    (∃ i t pre mid, s'.sh.trace = pre ++ (.client i, .sendFlush t) :: mid ∧
      Spec.Path (flushCaches t) (Spec.actsOf .worker mid) s'.worker ∧
      g' .worker = (Spec.actsOf .worker mid).foldl X.R.post (X.flushing t) ∧
      ((∃ b, .sendFlushed b ∈ Spec.actsOf .worker mid) ∨
        ∀ b, .recvFlushed b ∉ Spec.actsOf (.client i) mid)) := by
  rcases hi.job with ⟨e1, e2⟩ | ⟨k, pre, mid, e1, e2, e3⟩ | ⟨i, t, pre, mid, e1, e2, e3, e4⟩
  · exact .inl ⟨hw.trans e1, hg.trans e2⟩
  · refine .inr (.inl ⟨k, pre, mid ++ ext, by rw [ht, e1, List.append_assoc], ?_, ?_⟩)
    · rw [actsOf_append, h1, List.append_nil, hw]; exact e2
    · rw [actsOf_append, h1, List.append_nil, hg]; exact e3
  · refine .inr (.inr ⟨i, t, pre, mid ++ ext, by rw [ht, e1]; simp, ?_, ?_, ?_⟩)
    · rw [actsOf_append, h1, List.append_nil, hw]; exact e2
    · rw [actsOf_append, h1, List.append_nil, hg]; exact e3
    · rw [actsOf_append, h1, List.append_nil]
      refine e4.imp_right fun h b => ?_
      rw [actsOf_append, List.mem_append]
      rintro (h' | h')
      · exact h b h'
      · exact h2 i b h'

/-- The worker's part when the worker does `a`. -/
theorem Scheme.job_act {S : Setup σ} {X : Scheme S γ} {g g' : Tid → γ} {s s' : Sys σ} {a : Act}
    {ext : List (Tid × Act)} (hi : X.Hist g s) (ht : s'.sh.trace = s.sh.trace ++ ext)
    (hg : g' .worker = X.R.post (g .worker) a) (hw : s.worker.Next a s'.worker)
    (h1 : Spec.actsOf .worker ext = [a])
    (h2 : (∃ b, a = .sendFlushed b) ∨ ∀ j b, .recvFlushed b ∉ Spec.actsOf (.client j) ext) :
    (s'.worker = .ret () ∧ g' .worker = X.idle) ∨
    (∃ k pre mid, s'.sh.trace = pre ++ mid ∧
      Spec.Path (onTick k) (Spec.actsOf .worker mid) s'.worker ∧
      g' .worker = (Spec.actsOf .worker mid).foldl X.R.post X.idle) ∨
    (∃ i t pre mid, s'.sh.trace = pre ++ (.client i, .sendFlush t) :: mid ∧
      Spec.Path (flushCaches t) (Spec.actsOf .worker mid) s'.worker ∧
      g' .worker = (Spec.actsOf .worker mid).foldl X.R.post (X.flushing t) ∧
      ((∃ b, .sendFlushed b ∈ Spec.actsOf .worker mid) ∨
        ∀ b, .recvFlushed b ∉ Spec.actsOf (.client i) mid)) := by
  rcases hi.job with ⟨e1, e2⟩ | ⟨k, pre, mid, e1, e2, e3⟩ | ⟨i, t, pre, mid, e1, e2, e3, e4⟩
  · rw [e1] at hw; cases hw
  · refine .inr (.inl ⟨k, pre, mid ++ ext, by rw [ht, e1, List.append_assoc], ?_, ?_⟩)
    · rw [actsOf_append, h1]; exact e2.snoc hw
    · rw [actsOf_append, h1, hg, e3, List.foldl_append]; rfl
  · refine .inr (.inr ⟨i, t, pre, mid ++ ext, by rw [ht, e1]; simp, ?_, ?_, ?_⟩)
    · rw [actsOf_append, h1]; exact e2.snoc hw
    · rw [actsOf_append, h1, hg, e3, List.foldl_append]; rfl
    · rw [actsOf_append, h1]
      rcases h2 with ⟨b, rfl⟩ | h2
      · exact .inl ⟨b, by simp⟩
      rcases e4 with ⟨b, hb⟩ | e4
      · exact .inl ⟨b, by simp [hb]⟩
      · refine .inr fun b => ?_
        rw [actsOf_append, List.mem_append]
        rintro (h' | h')
        · exact e4 b h'
        · exact h2 i b h'

theorem Scheme.inv_work {S : Setup σ} (X : Scheme S γ) {g : Tid → γ} {s s' : Sys σ}
    (hi : X.Inv g s) (hw : Work S.line s s') : ∃ g', X.Inv g' s' := by
  cases hw with
  | client i c a p sh hc hn ha =>
    obtain ⟨hmust, hok⟩ := ok_next (hi.client i c hc).1 hn (X.may_act hi.glob ha)
    refine ⟨upd g (.client i) (X.R.post (g (.client i)) a), ?_, ?_, ?_, ?_, ?_, ?_⟩
    · intro j c' h
      obtain ⟨c2, h2, e, _⟩ := setClient_call h
      exact e ▸ hi.call j c2 h2
    · intro j c' h
      obtain ⟨c2, h2, e, h3⟩ := setClient_call h
      rcases h3 with ⟨rfl, rfl⟩ | ⟨hne, rfl⟩
      · rw [upd_same, ← e]
        have : c2 = c := by simp_all
        exact this ▸ ⟨hok, X.k_post (hi.client _ c hc).2⟩
      · rw [upd_other _ _ (by simp; omega)]
        exact hi.client j c2 h2
    · rw [upd_other _ _ (by simp)]; exact hi.worker
    · intro j hj
      have hl := hj
      simp only [setClient_length] at hl
      have : i < s.clients.length := by
        rw [List.getElem?_eq_some_iff] at hc; exact hc.1
      rw [upd_other _ _ (by simp; omega)]
      exact hi.unborn j hl
    · exact X.g_act hi.glob ha hmust
    · have ht := acts_trace ha
      have hcl := Scheme.hist_client (g' := upd g (.client i) (X.R.post (g (.client i)) a))
        (trace := sh.trace) hi.hist hc hn
        (by
          intro j
          rw [ht, actsOf_append]
          congr 1
          by_cases e : j = i
          · subst e; simp [Spec.actsOf]
          · simp [Spec.actsOf, e, Ne.symm e])
        (by
          intro j
          by_cases e : j = i
          · subst e; rw [upd_same, if_pos rfl]
          · rw [upd_other _ _ (by simp; omega), if_neg e])
      refine ⟨hcl.1, hcl.2, Scheme.job_quiet hi.hist ht ?_ rfl ?_ ?_⟩
      · rw [upd_other _ _ (by simp)]
      · simp [Spec.actsOf]
      · intro j b
        by_cases e : j = i
        · subst e; simpa [Spec.actsOf] using Ne.symm (acts_not_recv ha b)
        · simp [Spec.actsOf, Ne.symm e]
  | worker a p sh hn ha =>
    obtain ⟨hmust, hok⟩ := ok_next hi.worker hn (X.may_act hi.glob ha)
    refine ⟨upd g .worker (X.R.post (g .worker) a), hi.call, ?_, ?_, ?_, ?_, ?_⟩
    · intro j c' h
      rw [upd_other _ _ (by simp)]
      exact hi.client j c' h
    · rw [upd_same]; exact hok
    · intro j hj
      rw [upd_other _ _ (by simp)]
      exact hi.unborn j hj
    · exact X.g_act hi.glob ha hmust
    · have ht := acts_trace ha
      have hq : ∀ j, Spec.actsOf (.client j) sh.trace = Spec.actsOf (.client j) s.sh.trace := by
        intro j; rw [ht, actsOf_append]; simp [Spec.actsOf]
      refine ⟨?_, ?_, Scheme.job_act hi.hist ht (upd_same _ _ _) hn ?_ ?_⟩
      · intro j c' h
        rw [hq, upd_other _ _ (by simp)]; exact hi.hist.path j c' h
      · intro j hj
        rw [hq]; exact hi.hist.fresh j hj
      · simp [Spec.actsOf]
      · exact .inr fun j b => by simp [Spec.actsOf]
  | flush i c t p hc hn hw =>
    have hidle : g .worker = X.idle := by have := hi.worker; rw [hw] at this; exact this
    obtain ⟨hmust, hok⟩ := ok_next (hi.client i c hc).1 hn (X.may_send hi.glob hidle)
    refine ⟨upd (upd g (.client i) (X.R.post (g (.client i)) (.sendFlush t))) .worker
      (X.flushing t), ?_, ?_, ?_, ?_, ?_, ?_⟩
    · intro j c' h
      obtain ⟨c2, h2, e, _⟩ := setClient_call h
      exact e ▸ hi.call j c2 h2
    · intro j c' h
      rw [upd_other _ _ (by simp)]
      obtain ⟨c2, h2, e, h3⟩ := setClient_call h
      rcases h3 with ⟨rfl, rfl⟩ | ⟨hne, rfl⟩
      · rw [upd_same, ← e]
        have : c2 = c := by simp_all
        exact this ▸ ⟨hok, X.k_post (hi.client _ c hc).2⟩
      · rw [upd_other _ _ (by simp; omega)]
        exact hi.client j c2 h2
    · rw [upd_same]; exact X.ok_flush t
    · intro j hj
      have hl := hj
      simp only [setClient_length] at hl
      have : i < s.clients.length := by
        rw [List.getElem?_eq_some_iff] at hc; exact hc.1
      rw [upd_other _ _ (by simp), upd_other _ _ (by simp; omega)]
      exact hi.unborn j hl
    · exact X.g_send hi.glob hidle hmust
    · have hcl := Scheme.hist_client
        (g' := upd (upd g (.client i) (X.R.post (g (.client i)) (.sendFlush t))) .worker
          (X.flushing t))
        (trace := s.sh.trace ++ [(.client i, .sendFlush t)]) hi.hist hc hn
        (by
          intro j
          rw [actsOf_append]
          congr 1
          by_cases e : j = i
          · subst e; simp [Spec.actsOf]
          · simp [Spec.actsOf, e, Ne.symm e])
        (by
          intro j
          rw [upd_other _ _ (by simp)]
          by_cases e : j = i
          · subst e; rw [upd_same, if_pos rfl]
          · rw [upd_other _ _ (by simp; omega), if_neg e])
      refine ⟨hcl.1, hcl.2, .inr (.inr ⟨i, t, s.sh.trace, [], rfl, .nil, upd_same _ _ _, .inr ?_⟩)⟩
      simp [Spec.actsOf]
  | flushed i c b p q hc hn hw =>
    obtain ⟨hm1, hok1⟩ := ok_next hi.worker hw (X.may_answer hi.glob)
    have hcond : ∀ b, X.R.may (g (.client i)) (.recvFlushed b) →
        X.R.must (g (.client i)) (.recvFlushed b) := by
      intro b' hm'
      obtain ⟨k, hk, -⟩ := next_recv hn
      have := (hi.client i c hc).1
      rw [hk] at this
      exact (this b' hm').1
    obtain ⟨hm2, hok2⟩ := ok_next (hi.client i c hc).1 hn (X.may_recv hi.glob hm1 hcond)
    refine ⟨upd (upd g (.client i) (X.R.post (g (.client i)) (.recvFlushed b))) .worker
        (X.R.post (g .worker) (.sendFlushed b)), ?_, ?_, ?_, ?_, ?_, ?_⟩
    · intro j c' h
      obtain ⟨c2, h2, e, _⟩ := setClient_call h
      exact e ▸ hi.call j c2 h2
    · intro j c' h
      rw [upd_other _ _ (by simp)]
      obtain ⟨c2, h2, e, h3⟩ := setClient_call h
      rcases h3 with ⟨rfl, rfl⟩ | ⟨hne, rfl⟩
      · rw [upd_same, ← e]
        have : c2 = c := by simp_all
        exact this ▸ ⟨hok2, X.k_post (hi.client _ c hc).2⟩
      · rw [upd_other _ _ (by simp; omega)]
        exact hi.client j c2 h2
    · rw [upd_same]; exact hok1
    · intro j hj
      have hl := hj
      simp only [setClient_length] at hl
      have : i < s.clients.length := by
        rw [List.getElem?_eq_some_iff] at hc; exact hc.1
      rw [upd_other _ _ (by simp), upd_other _ _ (by simp; omega)]
      exact hi.unborn j hl
    · exact X.g_recv hi.glob hm1 hm2
    · have hcl := Scheme.hist_client
        (g' := upd (upd g (.client i) (X.R.post (g (.client i)) (.recvFlushed b))) .worker
          (X.R.post (g .worker) (.sendFlushed b)))
        (trace := s.sh.trace ++ [(.worker, .sendFlushed b), (.client i, .recvFlushed b)])
        hi.hist hc hn
        (by
          intro j
          rw [actsOf_append]
          congr 1
          by_cases e : j = i
          · subst e; simp [Spec.actsOf]
          · simp [Spec.actsOf, e, Ne.symm e])
        (by
          intro j
          rw [upd_other _ _ (by simp)]
          by_cases e : j = i
          · subst e; rw [upd_same, if_pos rfl]
          · rw [upd_other _ _ (by simp; omega), if_neg e])
      refine ⟨hcl.1, hcl.2, Scheme.job_act hi.hist rfl (upd_same _ _ _) hw ?_ (.inl ⟨b, rfl⟩)⟩
      simp [Spec.actsOf]

theorem Scheme.inv_step {S : Setup σ} (X : Scheme S γ) {g : Tid → γ} {s s' : Sys σ}
    (hi : X.Inv g s) (hw : Step S s s') : ∃ g', X.Inv g' s' := by
  cases hw with
  | work hw => exact X.inv_work hi hw
  | tick k hw =>
    have hidle : g .worker = X.idle := by have := hi.worker; rw [hw] at this; exact this
    refine ⟨g, hi.call, hi.client, hidle ▸ X.ok_tick k, hi.unborn, hi.glob, hi.hist.path,
      hi.hist.fresh, .inr (.inl ⟨k, s.sh.trace, [], by simp, .nil, hidle⟩)⟩
  | arrive c hc =>
    refine ⟨upd g (.client s.clients.length) (X.born c), ?_, ?_, ?_, ?_, ?_, ?_⟩
    · intro j c' h
      rw [List.getElem?_append] at h
      split at h
      · exact hi.call j c' h
      · rw [List.getElem?_singleton] at h
        split at h
        · cases h; exact hc
        · exact absurd h (by simp)
    · intro j c' h
      simp only [List.getElem?_append] at h
      split at h
      · rename_i hlt
        rw [upd_other _ _ (by simp; omega)]
        exact hi.client j c' h
      · rename_i hlt
        rw [List.getElem?_singleton] at h
        split at h
        · rename_i h0
          cases h
          have : j = s.clients.length := by omega
          subst this
          rw [upd_same]
          exact ⟨X.ok_call c hc, X.k_born c⟩
        · exact absurd h (by simp)
    · rw [upd_other _ _ (by simp)]; exact hi.worker
    · intro j hj
      simp only [List.length_append, List.length_singleton] at hj
      rw [upd_other _ _ (by simp; omega)]
      exact hi.unborn j (by omega)
    · exact X.g_born hi.glob hc (hi.unborn _ (Nat.le_refl _))
    · refine ⟨?_, ?_, Scheme.job_quiet (ext := []) hi.hist (by simp) ?_ rfl rfl (by simp [Spec.actsOf])⟩
      · intro j c' h
        simp only [List.getElem?_append] at h
        split at h
        · rename_i hlt
          rw [upd_other _ _ (by simp; omega)]
          exact hi.hist.path j c' h
        · rename_i hlt
          rw [List.getElem?_singleton] at h
          split at h
          · rename_i h0
            cases h
            have : j = s.clients.length := by omega
            subst this
            rw [upd_same]
            simp only [hi.hist.fresh _ (Nat.le_refl _)]
            exact ⟨.nil, rfl⟩
          · exact absurd h (by simp)
      · intro j hj
        simp only [List.length_append, List.length_singleton] at hj
        exact hi.hist.fresh j (by omega)
      · rw [upd_other _ _ (by simp)]
  | environment line ns he =>
    exact ⟨g, hi.call, hi.client, hi.worker, hi.unborn, X.g_env hi.glob he,
      ⟨hi.hist.path, hi.hist.fresh, hi.hist.job⟩⟩

/-- The ghost states at the start. -/
def Scheme.start {S : Setup σ} (X : Scheme S γ) : Tid → γ
  | .client _ => X.unborn
  | .worker => X.idle

theorem Scheme.sound {S : Setup σ} (X : Scheme S γ) {w : World σ} {s : Sys σ}
    (h0 : X.G X.start { world := w }) (h : Reachable S (Sys.initial w) s) : ∃ g, X.Inv g s := by
  induction h with
  | start =>
    exact ⟨X.start, by simp [Sys.initial], by simp [Sys.initial], rfl, fun _ _ => rfl, h0,
      by simp [Sys.initial], fun _ _ => rfl, .inl ⟨rfl, rfl⟩⟩
  | step _ hs ih =>
    obtain ⟨g, hg⟩ := ih
    exact X.inv_step hg hs

end Comfo
