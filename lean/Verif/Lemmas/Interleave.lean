import Verif.Lemmas.LockInv
/-! Helper lemmas: progress, termination, and what traces look like. -/
namespace Comfo
open Spec

theorem inv1 {S : Setup σ} {w : World σ} {s : Sys σ} (h : Reachable S (Sys.initial w) s) :
    ∃ g, (scheme1 S).Inv g s :=
  (scheme1 S).sound (glob1_start w _ rfl fun _ => rfl) h

/-! ## Progress -/

/-- What the head of a program that keeps to the rules can be. -/
inductive Head (L : Line σ) (s : Shared σ) (t : Tid) (g : G1) : Prog α → Prop
  | ret : Head L s t g (.ret a)
  | lock : g.Free l → Head L s t g (.lock l k)
  | rlock : g.Free l → Head L s t g (.rlock l k)
  | sendFlush : g.held = [] → g.isWorker = false → Head L s t g (.sendFlush v k)
  | recvFlushed : g.held = [] → g.await ≠ none → Head L s t g (.recvFlushed k)
  | sendFlushed : g.held = [] → g.owes ≠ none → Head L s t g (.sendFlushed b k)
  | other : Acts L t a s s' → p.Next a q → g.await = none → (∀ l, a ≠ .rlock l) → Head L s t g p

theorem head_of_ok {L : Line σ} (hL : L.NoPanic) {sh : Shared σ} {t : Tid} {g : Tid → G1}
    (hG : Glob1 g sh) {Q : G1 → α → Prop} {p : Prog α}
    (h : p.Ok R1 Q (g t)) : Head L sh t (g t) p := by
  cases p with
  | ret a => exact .ret
  | panic => exact absurd h id
  | lock l k => exact .lock (h trivial).1.2
  | rlock l k => exact .rlock (h trivial).1.2.1
  | unlock l k =>
    have := (h trivial).1
    exact .other (.unlock ((hG.held_iff _ _ _).1 this.2.1)) .unlock this.1 (by simp)
  | runlock l k =>
    have := (h trivial).1
    exact .other (.runlock ((hG.held_iff _ _ _).1 this.2.1)) .runlock this.1 (by simp)
  | now k => exact .other .now (.now _) (h 0 trivial).1 (by simp)
  | sleep ns k => exact .other (.sleep ns) .sleep (h trivial).1 (by simp)
  | write bs k => exact .other (.wrote rfl) (.write _) (h (0, none) trivial).1.1 (by simp)
  | read e k =>
    match hr : L.read e sh.world.line with
    | (.panic, l) => exact absurd hr (by intro hh; exact hL e sh.world.line (by rw [hh]))
    | (.ret q err, l) => exact .other (.got hr) (.read _) (h ({}, none) trivial).1.1 (by simp)
  | load id k => exact .other .load (.load _) (h (zeroEntry id) trivial).1.1 (by simp)
  | store id e k => exact .other .store .store (h trivial).1.1 (by simp)
  | note id ts k => exact .other .note .note (h trivial).1.1 (by simp)
  | sendFlush v k =>
    have := (h trivial).1
    exact .sendFlush this.2.1 this.2.2
  | recvFlushed k =>
    match ha : (g t).await with
    | none =>
      have := (h true (by intro u hu; rw [ha] at hu; cases hu)).1
      exact absurd ha this.1
    | some v =>
      have := (h (knownCache v) (by intro u hu; rw [ha] at hu; cases hu; rfl)).1
      exact .recvFlushed this.2 this.1
  | sendFlushed b k =>
    have := (h trivial).1
    obtain ⟨_, hh, v, hv, _⟩ := this
    exact .sendFlushed hh (by rw [hv]; simp)

theorem canAct {L : Line σ} {s : Sys σ} {t : Tid} {a : Act} {sh' : Shared σ}
    (hp : Poised s t a) (ha : Acts L t a s.sh sh') : ∃ s', Work L s s' ∧ s'.sh = sh' := by
  cases t with
  | client i =>
    obtain ⟨c, p, hc, hn⟩ := hp
    exact ⟨_, .client i c a p sh' hc hn ha, rfl⟩
  | worker =>
    obtain ⟨p, hn⟩ := hp
    exact ⟨_, .worker a p sh' hn ha, rfl⟩

theorem canAct_fair {L : Line σ} {s : Sys σ} {t : Tid} {a : Act} {sh' : Shared σ}
    (hp : Poised s t a) (ha : Acts L t a s.sh sh')
    (hf : ∀ l, a = .rlock l → ∀ u, ¬ Poised s u (.lock l)) :
    ∃ s', Work L s s' ∧ NoOvertaking s s' := by
  obtain ⟨s', h1, h2⟩ := canAct hp ha
  refine ⟨s', h1, fun u l e => hf l ?_⟩
  rw [h2, acts_trace ha] at e
  have := List.append_cancel_left e
  simp at this
  exact this.2

/-- A goroutine that holds a lock can go on or waits for another lock. -/
theorem holder_head {S : Setup σ} (hL : S.line.NoPanic) {s : Sys σ} {g : Tid → G1}
    (hi : (scheme1 S).Inv g s) {t : Tid} (ht : (g t).held ≠ []) :
    (∃ a sh', Poised s t a ∧ Acts S.line t a s.sh sh' ∧ ∀ l, a ≠ .rlock l) ∨
    ∃ l, (g t).Free l ∧ (Poised s t (.lock l) ∨ Poised s t (.rlock l)) := by
  have hG : Glob1 g s.sh := hi.glob
  have key : ∀ {α : Type} {p : Prog α} {Q : G1 → α → Prop}, p.Ok R1 Q (g t) →
      (∀ a, Q (g t) a → (g t).held = []) →
      (∀ a q, p.Next a q → Poised s t a) →
      (∃ a sh', Poised s t a ∧ Acts S.line t a s.sh sh' ∧ ∀ l, a ≠ .rlock l) ∨
      ∃ l, (g t).Free l ∧ (Poised s t (.lock l) ∨ Poised s t (.rlock l)) := by
    intro α p Q hok hret hpo
    cases head_of_ok hL hG hok with
    | ret => exact absurd (hret _ hok) ht
    | lock hf => exact .inr ⟨_, hf, .inl (hpo _ _ .lock)⟩
    | rlock hf => exact .inr ⟨_, hf, .inr (hpo _ _ .rlock)⟩
    | sendFlush h => exact absurd h ht
    | recvFlushed h => exact absurd h ht
    | sendFlushed h => exact absurd h ht
    | other ha hn _ hr => exact .inl ⟨_, _, hpo _ _ hn, ha, hr⟩
  cases t with
  | worker =>
    refine key hi.worker ?_ ?_
    · rintro - h; rw [h]; rfl
    · intro a q hn; exact ⟨q, hn⟩
  | client i =>
    match hc : s.clients[i]? with
    | none =>
      have := hi.unborn i (List.getElem?_eq_none_iff.mp hc)
      exact absurd (by rw [this]; rfl) ht
    | some c =>
      refine key (hi.client i c hc).1 ?_ ?_
      · intro a h; exact h.held
      · intro a q hn; exact ⟨c, q, hc, hn⟩

theorem rank_le (l : Lock) : l.rank ≤ 4 := by cases l <;> simp [Lock.rank]

/-- If someone waits for a lock, someone can go on. -/
theorem waiting_progress {S : Setup σ} (hL : S.line.NoPanic) {s : Sys σ} {g : Tid → G1}
    (hi : (scheme1 S).Inv g s) : ∀ (n : Nat) (t : Tid) (l : Lock), 4 - l.rank < n →
    (Poised s t (.lock l) ∨ Poised s t (.rlock l)) →
    ∃ s', Work S.line s s' ∧ NoOvertaking s s' := by
  intro n
  induction n with
  | zero => intro t l h; omega
  | succ n ih =>
    intro t l hn hp
    have hG : Glob1 g s.sh := hi.glob
    have byHolder : ∀ h ∈ s.sh.held, h.lock = l → ∃ s', Work S.line s s' ∧ NoOvertaking s s' := by
      intro h hh hl
      have hmem := (hG.held_iff h.tid h.lock h.excl).2 hh
      rcases holder_head hL hi (List.ne_nil_of_mem hmem) with ⟨a, sh', h1, h2, h3⟩ | ⟨l', h1, h2⟩
      · exact canAct_fair h1 h2 fun l e => absurd e (h3 l)
      · have := h1 _ hmem
        have h4 := rank_le l'
        refine ih h.tid l' ?_ h2
        simp only [hl] at this
        omega
    have byLock : ∀ u, Poised s u (.lock l) → ∃ s', Work S.line s s' ∧ NoOvertaking s s' := by
      intro u hu
      by_cases hh : ∃ h ∈ s.sh.held, h.lock = l
      · obtain ⟨h, h1, h2⟩ := hh; exact byHolder h h1 h2
      · exact canAct_fair hu (.lock fun h h1 h2 => hh ⟨h, h1, h2⟩) (by simp)
    by_cases hw : ∃ u, Poised s u (.lock l)
    · obtain ⟨u, hu⟩ := hw; exact byLock u hu
    · rcases hp with hp | hp
      · exact byLock t hp
      · by_cases hh : ∃ h ∈ s.sh.held, h.lock = l
        · obtain ⟨h, h1, h2⟩ := hh; exact byHolder h h1 h2
        · refine canAct_fair hp (.rlock fun h h1 h2 => absurd ⟨h, h1, h2⟩ hh) ?_
          intro l' e u hu
          cases e
          exact hw ⟨u, hu⟩

theorem progress {S : Setup σ} (hL : S.line.NoPanic) {s : Sys σ} {g : Tid → G1}
    (hi : (scheme1 S).Inv g s) (hd : ¬ AllDone s) :
    ∃ s', Work S.line s s' ∧ NoOvertaking s s' := by
  have hG : Glob1 g s.sh := hi.glob
  have wait : ∀ t l, (Poised s t (.lock l) ∨ Poised s t (.rlock l)) →
      ∃ s', Work S.line s s' ∧ NoOvertaking s s' :=
    fun t l => waiting_progress hL hi _ t l (Nat.lt_succ_self _)
  have retClient : ∀ i (c : Client), s.clients[i]? = some c → (∃ r, c.prog = .ret r) →
      (g (.client i)).await = none := by
    rintro i c hc ⟨r, hr⟩
    have := (hi.client i c hc).1
    rw [hr] at this
    exact this.calm.await
  -- the worker
  by_cases hw : s.worker = .ret ()
  · have hidle : g .worker = idle1 := by have := hi.worker; rw [hw] at this; exact this
    have na := not_awaiting hG (by rw [hidle]; rfl)
    have : ∃ c ∈ s.clients, ¬ ∃ r, c.prog = .ret r := by
      refine Classical.byContradiction fun hcon => hd ⟨fun c hc => ?_, hw⟩
      exact Classical.byContradiction fun h => hcon ⟨c, hc, h⟩
    obtain ⟨c, hmem, hne⟩ := this
    obtain ⟨i, hc⟩ := List.mem_iff_getElem?.mp hmem
    have hpo : ∀ a q, c.prog.Next a q → Poised s (.client i) a := fun a q h => ⟨c, q, hc, h⟩
    have hh := head_of_ok hL hG (hi.client i c hc).1
    generalize hp : c.prog = p at hh hne hpo
    cases hh with
    | ret => exact absurd ⟨_, rfl⟩ hne
    | lock hf => exact wait _ _ (.inl (hpo _ _ .lock))
    | rlock hf => exact wait _ _ (.inr (hpo _ _ .rlock))
    | @sendFlush v _ k _ _ =>
      have hn : c.prog.Next (.sendFlush v) k := by rw [hp]; exact .sendFlush
      exact ⟨_, .flush i c v k hc hn hw, by intro t l e; simp at e⟩
    | recvFlushed _ ha => exact absurd (na i) ha
    | sendFlushed _ ho => exact absurd (hG.clientOwes i) ho
    | other ha hn _ hr => exact canAct_fair (hpo _ _ hn) ha fun l e => absurd e (hr l)
  · have hpo : ∀ a q, s.worker.Next a q → Poised s .worker a := fun a q h => ⟨q, h⟩
    have hh := head_of_ok hL hG hi.worker
    generalize hp : s.worker = p at hh hw hpo
    cases hh with
    | ret => exact absurd rfl hw
    | lock hf => exact wait _ _ (.inl (hpo _ _ .lock))
    | rlock hf => exact wait _ _ (.inr (hpo _ _ .rlock))
    | sendFlush _ h => exact absurd ((hG.isWorker _).2 rfl) (by simp [h])
    | recvFlushed _ h => exact absurd hG.workerAwait h
    | other ha hn _ hr => exact canAct_fair (hpo _ _ hn) ha fun l e => absurd e (hr l)
    | @sendFlushed b _ k _ ho =>
      match hov : (g .worker).owes with
      | none => exact absurd hov ho
      | some v =>
        obtain ⟨i, hi'⟩ := hG.owes_await v hov
        match hc : s.clients[i]? with
        | none =>
          have hun : g (.client i) = {} := hi.unborn i (List.getElem?_eq_none_iff.mp hc)
          rw [hun] at hi'; cases hi'
        | some c =>
          have hh := head_of_ok hL hG (hi.client i c hc).1
          have hr := retClient i c hc
          have hok := (hi.client i c hc).1
          generalize hcp : c.prog = p at hh hr hok
          cases hh with
          | ret => exact absurd (hr ⟨_, rfl⟩) (by simp [hi'])
          | lock hf => have := (hok trivial).1.1; rw [hi'] at this; cases this
          | rlock hf => have := (hok trivial).1.1; rw [hi'] at this; cases this
          | sendFlush _ _ => have := (hok trivial).1.1; rw [hi'] at this; cases this
          | sendFlushed _ _ => have := (hok trivial).1.1; rw [hi'] at this; cases this
          | other _ _ h _ => rw [hi'] at h; cases h
          | @recvFlushed _ k' _ _ =>
            have hn : c.prog.Next (.recvFlushed b) (k' b) := by rw [hcp]; exact .recvFlushed b
            have hn' : s.worker.Next (.sendFlushed b) k := by rw [hp]; exact .sendFlushed
            exact ⟨_, .flushed i c b _ k hc hn hn', by intro t l e; simp at e⟩

/-! ## Termination -/

theorem acc_next (p : Prog α) : Acc (fun q p => ∃ a, Prog.Next p a q) p := by
  induction p with
  | ret a => exact ⟨_, fun q ⟨a, h⟩ => by cases h⟩
  | panic => exact ⟨_, fun q ⟨a, h⟩ => by cases h⟩
  | now k ih => exact ⟨_, fun q ⟨a, h⟩ => by cases h; exact ih _⟩
  | write bs k ih => exact ⟨_, fun q ⟨a, h⟩ => by cases h; exact ih _⟩
  | read e k ih => exact ⟨_, fun q ⟨a, h⟩ => by cases h; exact ih _⟩
  | load id k ih => exact ⟨_, fun q ⟨a, h⟩ => by cases h; exact ih _⟩
  | recvFlushed k ih => exact ⟨_, fun q ⟨a, h⟩ => by cases h; exact ih _⟩
  | _ => rename_i ih; exact ⟨_, fun q ⟨a, h⟩ => by cases h; exact ih⟩

/-- One client of the list has moved. -/
def Moved (l' l : List Client) : Prop :=
  ∃ (i : Nat) (c : Client) (a : Act) (p : Prog Resp), l[i]? = some c ∧ c.prog.Next a p ∧
    l' = l.modify i fun c => { c with prog := p }

theorem acc_moved_cons (call : Call) {p : Prog Resp} (hp : Acc (fun q p => ∃ a, Prog.Next p a q) p) :
    ∀ {l : List Client}, Acc Moved l → Acc Moved ({ call := call, prog := p } :: l) := by
  induction hp with
  | intro p _ ihp =>
    intro l hl
    induction hl with
    | intro l hl ihl =>
      refine ⟨_, ?_⟩
      rintro l' ⟨i, c, a, q, hc, hn, rfl⟩
      cases i with
      | zero =>
        simp only [List.getElem?_cons_zero, Option.some.injEq] at hc
        subst hc
        exact ihp q ⟨a, hn⟩ ⟨l, hl⟩
      | succ i =>
        simp only [List.getElem?_cons_succ] at hc
        exact ihl _ ⟨i, c, a, q, hc, hn, rfl⟩

theorem acc_moved (l : List Client) : Acc Moved l := by
  induction l with
  | nil => exact ⟨_, fun l' ⟨i, c, a, p, hc, _⟩ => by simp at hc⟩
  | cons c l ih => exact acc_moved_cons c.call (acc_next c.prog) ih

theorem work_wf (L : Line σ) : WellFounded (fun s' s : Sys σ => Work L s s') := by
  suffices h : ∀ l : List Client, Acc Moved l → ∀ p : Prog Unit,
      Acc (fun q p => ∃ a, Prog.Next p a q) p → ∀ s : Sys σ, s.clients = l → s.worker = p →
      Acc (fun s' s : Sys σ => Work L s s') s from
    ⟨fun s => h _ (acc_moved _) _ (acc_next _) s rfl rfl⟩
  intro l hl
  induction hl with
  | intro l _ ihl =>
    intro p hp
    induction hp with
    | intro p _ ihp =>
      rintro s rfl rfl
      refine ⟨_, ?_⟩
      intro s' hw
      cases hw with
      | client i c a p sh hc hn _ => exact ihl _ ⟨i, c, a, p, hc, hn, rfl⟩ _ (acc_next _) _ rfl rfl
      | worker a p sh hn _ => exact ihp _ ⟨a, hn⟩ _ rfl rfl
      | flush i c t p hc hn _ => exact ihl _ ⟨i, c, _, p, hc, hn, rfl⟩ _ (acc_next _) _ rfl rfl
      | flushed i c b p q hc hn _ => exact ihl _ ⟨i, c, _, p, hc, hn, rfl⟩ _ (acc_next _) _ rfl rfl

theorem reach_works {S : Setup σ} {s₀ s s' : Sys σ} (h : Reachable S s₀ s)
    (hw : Works S.line s s') : Reachable S s₀ s' := by
  induction hw with
  | done => exact h
  | step h1 _ ih => exact ih (h.step (.work h1))

theorem can_finish {S : Setup σ} (hL : S.line.NoPanic) {w : World σ} {s : Sys σ}
    (h : Reachable S (Sys.initial w) s) : ∃ s', Works S.line s s' ∧ AllDone s' := by
  induction s using (work_wf S.line).induction with
  | _ s ih =>
    by_cases hd : AllDone s
    · exact ⟨s, .done, hd⟩
    · obtain ⟨g, hi⟩ := inv1 h
      obtain ⟨s1, h1, -⟩ := progress hL hi hd
      obtain ⟨s2, h2, h3⟩ := ih s1 h1 (h.step (.work h1))
      exact ⟨s2, .step h1 h2, h3⟩

/-! ## Traces -/

theorem path_ok {γ : Type} {R : Rules γ} (hm : ∀ g a, R.may g a) {Q : γ → α → Prop} {p q : Prog α}
    {acts : List Act} {g : γ} (hp : Path p acts q) (h : p.Ok R Q g) :
    q.Ok R Q (acts.foldl R.post g) := by
  induction hp with
  | nil => exact h
  | snoc _ hn ih =>
    rw [List.foldl_append]
    exact (ok_next ih hn (hm _ _)).2

/-- Collect the effects; `P` must hold when the worker answers. -/
def RL (P : List Act → Bool → Prop) : Rules (List Act) where
  may _ _ := True
  must
    | g, .sendFlushed b => P g b
    | _, _ => True
  post g a := g ++ effects [a]

theorem effects_append (a b : List Act) : effects (a ++ b) = effects a ++ effects b := by
  simp [effects]

variable {P : List Act → Bool → Prop}

theorem rl_foldl (acts g : List Act) : acts.foldl (RL P).post g = g ++ effects acts := by
  induction acts generalizing g with
  | nil => simp [effects]
  | cons a acts ih =>
    rw [List.foldl_cons, ih, show a :: acts = [a] ++ acts from rfl, effects_append]
    simp [RL]

theorem path_effects {Q : List Act → α → Prop} {p : Prog α} {acts : List Act} {a : α}
    (hp : Path p acts (.ret a)) (h : p.Ok (RL P) Q []) : Q (effects acts) a := by
  have := path_ok (fun _ _ => trivial) hp h
  rw [rl_foldl] at this
  exact this

theorem pktAck_eq : pktAck = ack := rfl

theorem rl_query {g : List Act} (p : Packet) (hp : p.data.length ≤ 255) :
    (queryPacketP p).Ok (RL P) (fun g' r => ∃ evs, g' = g ++ evs.map toAct ∧
      Transaction p.command p.data p.expect evs r) g := by
  unfold queryPacketP
  rw [marshal_ok p hp]
  simp only [frame_eq]
  refine fun _ => ⟨trivial, ?_⟩
  rintro ⟨n, err⟩ -
  refine ⟨trivial, ?_⟩
  cases err with
  | some e => exact fun _ => ⟨trivial, _, by simp [RL, effects, toAct, pktAck_eq], .writeFailed n e⟩
  | none =>
    rintro ⟨q, err⟩ -
    refine ⟨trivial, ?_⟩
    cases err with
    | some e => exact fun _ => ⟨trivial, _, by simp [RL, effects, toAct, pktAck_eq], .readFailed n q e⟩
    | none =>
      by_cases hc : p.expect = true ∧ q.command ≠ p.command + 1
      · simp only [if_pos hc]
        exact fun _ => ⟨trivial, _, by simp [RL, effects, toAct, pktAck_eq], .wrongReply n q hc.1 hc.2⟩
      · have hc' : p.expect = true → q.command = p.command + 1 := by
          intro h
          by_cases h2 : q.command = p.command + 1
          · exact h2
          · exact absurd ⟨h, h2⟩ hc
        simp only [if_neg hc]
        rintro ⟨m, err⟩ -
        refine ⟨trivial, ?_⟩
        cases err with
        | some e => exact fun _ => ⟨trivial, _, by simp [RL, effects, toAct, pktAck_eq], .ackFailed n q m e hc'⟩
        | none =>
          refine fun _ => ⟨trivial, [.wrote (frame p.command p.data) (n, none),
            .got p.expect (q, none), .wrote ack (m, none)], by simp [RL, effects, toAct, pktAck_eq], ?_⟩
          by_cases hm : m = 2
          · subst hm; exact .complete n q hc'
          · have : m ≠ pktAck.length := hm
            rw [if_pos this]
            exact .ackShort n q m hc' hm

theorem transaction_code {cmd : UInt8} {d : List UInt8} {evs : List IoEv} {q : Packet}
    (h : Transaction cmd d true evs (q, none)) : q.command = cmd + 1 := by
  cases h with
  | complete n q h => exact h rfl

theorem rl_fetch {g : List Act} (id : CacheId) :
    id.fetch.Ok (RL P) (fun g' r => ∃ evs q e, g' = g ++ evs.map toAct ∧
      Transaction (requestCode id) [] true evs (q, e) ∧
      (r.2 = none ↔ (outcome id q e).isSome) ∧ (r.2 = none → outcome id q e = some r.1)) g := by
  refine ok_fetch id (ok_mono (rl_query _ (by simp)) ?_)
  rintro g' ⟨q, e⟩ ⟨evs, h1, h2⟩
  refine ⟨?_, fun v e' h3 h4 => ⟨evs, q, e, h1, h2, ?_, ?_⟩⟩
  · rintro he; simp only at he; subst he; exact transaction_code h2
  · rw [h3]; cases e <;> simp [outcome]
  · intro he'
    have := h3.1 he'
    obtain ⟨he, -⟩ := this
    simp only at he
    subst he
    exact h4 he'

theorem rl_update {g : List Act} (id : CacheId) :
    (update id true).Ok (RL P) (fun g' _ => ∃ acts, g' = g ++ acts ∧ RefreshRun id acts) g := by
  unfold update
  refine fun _ => ⟨trivial, fun now _ => ⟨trivial, ?_⟩⟩
  simp only [if_true]
  refine fun _ => ⟨trivial, ok_bind (ok_mono (rl_fetch id) ?_)⟩
  rintro g' ⟨v, err⟩ ⟨evs, q, e, h1, h2, h3, h4⟩
  cases err with
  | some er =>
    refine fun _ => ⟨trivial, _, ?_, .failed now evs q e h2 ?_⟩
    · simp only [h1, RL, effects]; simp
    · match ho : outcome id q e with
      | none => rfl
      | some v => rw [ho] at h3; simp at h3
  | none =>
    refine fun _ => ⟨trivial, fun _ => ⟨trivial, _, ?_, .good now evs q e v h2 (h4 rfl)⟩⟩
    simp only [h1, RL, effects]; simp

theorem rl_updates {g : List Act} (ids : List CacheId) :
    (Props.updates ids).Ok (RL P) (fun g' _ => ∃ runs, g' = g ++ runs ∧
      RefreshRuns ids runs) g := by
  induction ids generalizing g with
  | nil => exact ⟨[], by simp, .nil⟩
  | cons id ids ih =>
    refine ok_bind (ok_mono (rl_update id) ?_)
    rintro g' - ⟨acts, rfl, h2⟩
    refine ok_mono ih ?_
    rintro g'' - ⟨runs, rfl, h3⟩
    exact ⟨acts ++ runs, by simp, .cons h2 h3⟩

theorem rl_flush {g : List Act} (t : Int)
    (hP : ∀ runs, RefreshRuns ((Props.flushTargets t).getD []) runs →
      P (g ++ runs) (Props.flushTargets t).isSome) :
    (flushCaches t).Ok (RL P) (fun _ _ => True) g := by
  rw [Props.flushCaches_eq]
  match hf : Props.flushTargets t with
  | none =>
    have := hP [] (by rw [hf]; exact .nil)
    rw [hf, List.append_nil] at this
    exact fun _ => ⟨this, trivial⟩
  | some ids =>
    refine ok_bind (ok_mono (rl_updates ids) ?_)
    rintro g' - ⟨runs, rfl, h⟩
    have := hP runs (by rw [hf]; exact h)
    rw [hf] at this
    exact fun _ => ⟨this, trivial⟩

theorem targets_known (t : Int) : (Props.flushTargets t).isSome = knownCache t := by
  unfold Props.flushTargets knownCache
  by_cases h0 : t = 0
  · simp [h0]
  by_cases h1 : t = 1
  · simp [h1]
  by_cases h2 : t = 2
  · simp [h2]
  by_cases h3 : t = 3
  · simp [h3]
  by_cases h4 : t = 4
  · simp [h4]
  by_cases h10 : t = 10
  · simp [h10]
  · simp [h0, h1, h2, h3, h4, h10]

/-- What the worker has done for a flush when it is about to answer. -/
theorem flush_done {t : Int} {acts : List Act} {b : Bool} {q r : Prog Unit}
    (hp : Path (flushCaches t) acts q) (hn : q.Next (.sendFlushed b) r) :
    b = knownCache t ∧ RefreshRuns ((Props.flushTargets t).getD []) (effects acts) := by
  have h := path_ok (R := RL fun g b => b = knownCache t ∧
    RefreshRuns ((Props.flushTargets t).getD []) g) (fun _ _ => trivial) hp
    (rl_flush (g := []) t fun runs h => ⟨targets_known t, h⟩)
  rw [rl_foldl] at h
  exact (ok_next h hn trivial).1

/-! ## Flushes -/

theorem foldl_owes (acts : List Act) (g : G1) (v : Int) (h : (acts.foldl post1 g).owes = some v) :
    g.owes = some v ∧ ∀ b, .sendFlushed b ∉ acts := by
  induction acts generalizing g with
  | nil => exact ⟨h, by simp⟩
  | cons a acts ih =>
    obtain ⟨h1, h2⟩ := ih _ h
    cases a with
    | sendFlushed b => cases h1
    | unlock l =>
      refine ⟨?_, by simpa using h2⟩
      simp only [post1] at h1
      split at h1 <;> exact h1
    | _ => exact ⟨h1, by simpa using h2⟩

theorem foldl_await (acts : List Act) (g : G1) (h : g.await ≠ none)
    (hn : ∀ b, .recvFlushed b ∉ acts) : (acts.foldl post1 g).await ≠ none := by
  induction acts generalizing g with
  | nil => exact h
  | cons a acts ih =>
    refine ih _ ?_ fun b hb => hn b (by simp [hb])
    cases a with
    | recvFlushed b => exact absurd (by simp) (hn b)
    | unlock l =>
      simp only [post1]
      split <;> exact h
    | sendFlush t => simp [post1]
    | _ => exact h

/-- Every answer received ends a flush of the receiver's own. -/
def Served (trace : List (Tid × Act)) : Prop :=
  ∀ i b pre post, trace = pre ++ (.client i, .recvFlushed b) :: post →
    ∃ t pre' mid, pre = pre' ++ (.client i, .sendFlush t) :: mid ++ [(.worker, .sendFlushed b)] ∧
      (∀ b, .recvFlushed b ∉ actsOf (.client i) mid) ∧
      b = knownCache t ∧
      RefreshRuns ((Props.flushTargets t).getD []) (effects (actsOf .worker mid)) ∧
      ∃ q, Path (flushCaches t) (actsOf .worker mid) q

theorem served_append {trace ext : List (Tid × Act)} (h : Served trace)
    (he : ∀ i b, (Tid.client i, Act.recvFlushed b) ∉ ext) : Served (trace ++ ext) := by
  intro i b pre post e
  rcases List.append_eq_append_iff.mp e with ⟨l, rfl, h2⟩ | ⟨l, rfl, h2⟩
  · exact absurd (by rw [h2]; simp) (he i b)
  · match l, h2 with
    | [], h2 =>
      exact absurd (by rw [← (show _ = ext from h2)]; simp) (he i b)
    | x :: l, h2 =>
      simp only [List.cons_append, List.cons.injEq] at h2
      exact h i b pre l (by rw [← h2.1])

theorem served_work {S : Setup σ} {s s' : Sys σ} {g : Tid → G1} (hi : (scheme1 S).Inv g s)
    (hs : Served s.sh.trace) (hw : Work S.line s s') : Served s'.sh.trace := by
  cases hw with
  | client i c a p sh hc hn ha =>
    rw [show _ = s.sh.trace ++ _ from acts_trace ha]
    refine served_append hs fun j b => ?_
    simp only [List.mem_singleton, Prod.mk.injEq, not_and]
    exact fun _ e => acts_not_recv ha b e.symm
  | worker a p sh hn ha =>
    rw [show _ = s.sh.trace ++ _ from acts_trace ha]
    exact served_append hs fun j b => by simp
  | flush i c t p hc hn _ => exact served_append hs fun j b => by simp
  | flushed i c b p q hc hn hnw =>
    have hG : Glob1 g s.sh := hi.glob
    obtain ⟨⟨ha, hh, v, hv, hb⟩, -⟩ := ok_next hi.worker hnw trivial
    obtain ⟨⟨hne, -⟩, -⟩ := ok_next (hi.client i c hc).1 hn
      (may1_recv (i := i) hG ⟨ha, hh, v, hv, hb⟩)
    -- the worker is in a flush
    have hjob := hi.hist.job
    have hflush : ∃ i t pre mid, s.sh.trace = pre ++ (.client i, .sendFlush t) :: mid ∧
        Path (flushCaches t) (actsOf .worker mid) s.worker ∧
        g .worker = (actsOf .worker mid).foldl post1 (flushing1 t) ∧
        ∀ b, .recvFlushed b ∉ actsOf (.client i) mid := by
      rcases hjob with ⟨e1, -⟩ | ⟨k, pre, mid, e1, e2, e3⟩ | ⟨j, t, pre, mid, e1, e2, e3, e4⟩
      · rw [e1] at hnw; cases hnw
      · have hv' : ((actsOf .worker mid).foldl post1 idle1).owes = some v := by rw [← hv, e3]; rfl
        have := (foldl_owes _ _ v hv').1
        cases this
      · have hv' : ((actsOf .worker mid).foldl post1 (flushing1 t)).owes = some v := by
          rw [← hv, e3]; rfl
        have := (foldl_owes _ _ v hv').2
        exact ⟨j, t, pre, mid, e1, e2, e3, e4.resolve_left fun ⟨b, hb⟩ => this b hb⟩
    obtain ⟨j, t, pre, mid, e1, e2, e3, e4⟩ := hflush
    -- its client is the receiver
    have hji : j = i := by
      match hcj : s.clients[j]? with
      | none =>
        have := hi.hist.fresh j (List.getElem?_eq_none_iff.mp hcj)
        rw [e1, actsOf_append] at this
        simp [actsOf] at this
      | some cj =>
        have hf := (hi.hist.path j cj hcj).2
        have haj : (g (.client j)).await ≠ none := by
          rw [hf, e1, actsOf_append, List.foldl_append]
          have : actsOf (.client j) ((.client j, .sendFlush t) :: mid) =
              .sendFlush t :: actsOf (.client j) mid := by simp [actsOf]
          rw [this, List.foldl_cons]
          exact foldl_await (actsOf (.client j) mid) _ (by simp [post1, scheme1, R1]) e4
        match h1 : (g (.client j)).await, h2 : (g (.client i)).await with
        | none, _ => exact absurd h1 haj
        | _, none => exact absurd h2 hne
        | some x, some y => exact hG.one j i x y h1 h2
    subst hji
    obtain ⟨f1, f2⟩ := flush_done e2 hnw
    intro i' b' pre2 post2 e
    rcases List.append_eq_append_iff.mp (show s.sh.trace ++
        [(.worker, .sendFlushed b), (.client j, .recvFlushed b)] = _ from e) with
      ⟨l, h1, h2⟩ | ⟨l, h1, h2⟩
    · match l, h2 with
      | [], h2 => simp at h2
      | [x], h2 =>
        simp only [List.cons_append, List.nil_append, List.cons.injEq, Prod.mk.injEq,
          Tid.client.injEq, Act.recvFlushed.injEq] at h2
        obtain ⟨rfl, ⟨rfl, rfl⟩, -⟩ := h2
        exact ⟨t, pre, mid, by rw [h1, e1], e4, f1, f2, _, e2⟩
      | x :: y :: l, h2 => simp at h2
    · match l, h2 with
      | [], h2 => simp at h2
      | x :: l, h2 =>
        simp only [List.cons_append, List.cons.injEq] at h2
        exact hs i' b' pre2 l (by rw [h1, ← h2.1])

theorem served {S : Setup σ} {w : World σ} {s : Sys σ} (h : Reachable S (Sys.initial w) s) :
    Served s.sh.trace := by
  induction h with
  | start => intro i b pre post e; simp [Sys.initial] at e
  | step h0 hs ih =>
    cases hs with
    | work hw =>
      obtain ⟨g, hi⟩ := inv1 h0
      exact served_work hi ih hw
    | tick k hw => exact ih
    | arrive c hc => exact ih
    | environment line ns he => exact ih

theorem path_uncons {p q : Prog α} {acts : List Act} (h : Path p acts q) :
    (acts = [] ∧ p = q) ∨ ∃ a p' acts', acts = a :: acts' ∧ p.Next a p' ∧ Path p' acts' q := by
  induction h with
  | nil => exact .inl ⟨rfl, rfl⟩
  | snoc _ hn ih =>
    right
    rcases ih with ⟨rfl, rfl⟩ | ⟨a', p', acts', rfl, h1, h2⟩
    · exact ⟨_, _, [], rfl, hn, .nil⟩
    · exact ⟨a', p', _, rfl, h1, h2.snoc hn⟩

/-- What a flush request does. -/
theorem flush_path {t : Int} {acts : List Act} {p : Prog Resp} {cv : FloatConv}
    (h : Path ((Call.flush t).prog cv) acts p) :
    (∃ a b c, acts = [.now a, .sendFlush t, .recvFlushed b, .now c] ∧
      p = .ret (.flushed (.ok ⟨b, timeSub c a⟩))) ∨
    ((∀ r, p ≠ .ret r) ∧ ∃ a b, acts <+: [.now a, .sendFlush t, .recvFlushed b]) := by
  rcases path_uncons h with ⟨rfl, rfl⟩ | ⟨a1, p1, acts1, rfl, h1, h⟩
  · exact .inr ⟨(by intro r h; cases h), 0, true, by simp⟩
  change Prog.Next (.now _) _ _ at h1
  cases h1 with | now a =>
  rcases path_uncons h with ⟨rfl, rfl⟩ | ⟨a2, p2, acts2, rfl, h2, h⟩
  · exact .inr ⟨(by intro r h; cases h), a, true, by simp⟩
  change Prog.Next (.sendFlush _ _) _ _ at h2
  cases h2 with | sendFlush =>
  rcases path_uncons h with ⟨rfl, rfl⟩ | ⟨a3, p3, acts3, rfl, h3, h⟩
  · exact .inr ⟨(by intro r h; cases h), a, true, by simp⟩
  change Prog.Next (.recvFlushed _) _ _ at h3
  cases h3 with | recvFlushed b =>
  rcases path_uncons h with ⟨rfl, rfl⟩ | ⟨a4, p4, acts4, rfl, h4, h⟩
  · exact .inr ⟨(by intro r h; cases h), a, b, by simp⟩
  change Prog.Next (.now _) _ _ at h4
  cases h4 with | now c =>
  rcases path_uncons h with ⟨rfl, rfl⟩ | ⟨a5, p5, acts5, rfl, h5, h⟩
  · exact .inl ⟨a, b, c, rfl, rfl⟩
  · cases h5

/-! ## The traffic of one goroutine -/

/-- The traffic of goroutine `t`. -/
def traffic (t : Tid) (evs : List (Tid × IoEv)) : List IoEv :=
  evs.filterMap fun (u, e) => if u = t then some e else none

theorem traffic_append (t : Tid) (a b : List (Tid × IoEv)) :
    traffic t (a ++ b) = traffic t a ++ traffic t b := by simp [traffic]

theorem traffic_self (t : Tid) (evs : List IoEv) : traffic t (byTid t evs) = evs := by
  induction evs with
  | nil => rfl
  | cons e evs ih =>
    have : traffic t (byTid t (e :: evs)) = e :: traffic t (byTid t evs) := by
      simp [traffic, byTid]
    rw [this, ih]

theorem traffic_other {t u : Tid} (h : u ≠ t) (evs : List IoEv) : traffic t (byTid u evs) = [] := by
  simp [traffic, byTid, h]

/-- The effects of a goroutine that touches no cache are its traffic. -/
theorem effects_traffic (t : Tid) (trace : List (Tid × Act)) :
    ((effects (actsOf t trace)).filter fun | .wrote _ _ | .got _ _ => true | _ => false) =
      (traffic t (lineEvents trace)).map toAct := by
  induction trace with
  | nil => rfl
  | cons x trace ih =>
    obtain ⟨u, a⟩ := x
    have e1 : effects (actsOf t ((u, a) :: trace)) =
        effects (actsOf t [(u, a)]) ++ effects (actsOf t trace) := by
      rw [← effects_append, ← actsOf_append]; rfl
    have e2 : traffic t (lineEvents ((u, a) :: trace)) =
        traffic t (lineEvents [(u, a)]) ++ traffic t (lineEvents trace) := by
      rw [← traffic_append, ← lineEvents_append]; rfl
    rw [e1, e2, List.filter_append, List.map_append, ih]
    congr 1
    by_cases h : u = t
    · subst h
      cases a <;> simp [actsOf, lineEvents, traffic, effects, toAct]
    · cases a <;> simp [actsOf, lineEvents, traffic, effects, h]

/-- Does the event begin a query? -/
def isStart : IoEv → Bool
  | .wrote bs _ => bs.take 2 = [0x07, 0xF0]
  | _ => false

theorem isStart_frame (c : UInt8) (d : List UInt8) (r : Nat × Option Err) :
    isStart (.wrote (frame c d) r) = true := rfl

theorem isStart_ack (r : Nat × Option Err) : isStart (.wrote ack r) = false := rfl

theorem starts_transaction {cmd : UInt8} {d : List UInt8} {e : Bool} {evs : List IoEv}
    {r : Packet × Option Err} (h : Transaction cmd d e evs r) : evs.countP isStart = 1 := by
  cases h <;> rfl

theorem starts_part {evs : List IoEv} (h : PartOfQuery evs) (hn : evs ≠ []) :
    evs.countP isStart = 1 := by
  obtain ⟨rest, cmd, d, e, r, ht⟩ := h
  have h1 := starts_transaction ht
  rw [List.countP_append] at h1
  match evs, hn with
  | ev :: evs, _ =>
    have : isStart ev = true := by
      generalize hx : ev :: evs ++ rest = l at ht
      cases ht <;> (simp only [List.cons_append, List.cons.injEq] at hx; rw [hx.1]; rfl)
    rw [List.countP_cons, this] at h1 ⊢
    simp only [if_true] at h1 ⊢
    omega

theorem traffic_blocks (t : Tid) (B : List (Tid × List IoEv)) :
    traffic t (B.flatMap fun b => byTid b.1 b.2) =
      (B.filter (·.1 = t)).flatMap (·.2) := by
  induction B with
  | nil => rfl
  | cons b B ih =>
    rw [List.flatMap_cons, traffic_append, ih, List.filter_cons]
    by_cases h : b.1 = t
    · simp [h, traffic_self]
    · simp [h, traffic_other h]

/-- If the traffic of a goroutine is one query, it is in one piece. -/
theorem own_contiguous {g : Tid → G1} {sh : Shared σ} (hG : Glob1 g sh) {t : Tid} {cmd : UInt8}
    {d : List UInt8} {e : Bool} {evs : List IoEv} {r : Packet × Option Err}
    (ht : Transaction cmd d e evs r) (hev : traffic t (lineEvents sh.trace) = evs) :
    ∃ before after, lineEvents sh.trace = before ++ byTid t evs ++ after ∧
      ∀ x ∈ before ++ after, x.1 ≠ t := by
  obtain ⟨blocks, t₀, h1, -, h3⟩ := hG.serial
  have : ∃ B : List (Tid × List IoEv), (∀ b ∈ B, b.2.countP isStart = 1) ∧
      lineEvents sh.trace = B.flatMap fun b => byTid b.1 b.2 := by
    by_cases hn : (g t₀).tx = []
    · refine ⟨blocks, ?_, by rw [h3, hn]; simp [byTid]⟩
      intro b hb
      obtain ⟨_, _, _, _, hq⟩ := h1 b hb
      exact starts_transaction hq
    · refine ⟨blocks ++ [(t₀, (g t₀).tx)], ?_, by rw [h3]; simp⟩
      intro b hb
      rcases List.mem_append.mp hb with hb | hb
      · obtain ⟨_, _, _, _, hq⟩ := h1 b hb
        exact starts_transaction hq
      · rw [List.mem_singleton.mp hb]; exact starts_part (hG.tx_part _) hn
  obtain ⟨B, hB, hl⟩ := this
  rw [hl] at hev ⊢
  rw [traffic_blocks] at hev
  have hlen : (B.filter (·.1 = t)).length = 1 := by
    rw [← starts_transaction ht, ← hev]
    have hF : ∀ F : List (Tid × List IoEv), (∀ b ∈ F, b.2.countP isStart = 1) →
        F.length = (F.flatMap (·.2)).countP isStart := by
      intro F
      induction F with
      | nil => intro _; rfl
      | cons b F ih =>
        intro h
        rw [List.flatMap_cons, List.countP_append, h b (by simp),
          ← ih fun b hb => h b (by simp [hb])]
        simp; omega
    exact hF _ fun b hb => hB b (List.mem_filter.mp hb).1
  obtain ⟨x, hF⟩ := List.length_eq_one_iff.mp hlen
  · rw [hF] at hev
    obtain ⟨l₁, l₂, hb, hl1, hx, hl2⟩ := List.filter_eq_cons_iff.mp hF
    have hxe : x.2 = evs := by simpa using hev
    have hxt : x.1 = t := by simpa using hx
    refine ⟨l₁.flatMap fun b => byTid b.1 b.2, l₂.flatMap fun b => byTid b.1 b.2, ?_, ?_⟩
    · rw [hb]; simp [hxe, hxt]
    · intro y hy
      rcases List.mem_append.mp hy with hy | hy
      · obtain ⟨b, hb1, hb2⟩ := List.mem_flatMap.mp hy
        have := hl1 b hb1
        simp only [byTid, List.mem_map] at hb2
        obtain ⟨_, _, rfl⟩ := hb2
        simpa using this
      · obtain ⟨b, hb1, hb2⟩ := List.mem_flatMap.mp hy
        have := List.filter_eq_nil_iff.mp hl2 b hb1
        simp only [byTid, List.mem_map] at hb2
        obtain ⟨_, _, rfl⟩ := hb2
        simpa using this

end Comfo
