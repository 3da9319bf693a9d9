import Verif.Lemmas.Ghost
import Verif.Lemmas.Evolve
import Verif.Props.Server
import Verif.Spec.Unit
/-!
Helper lemmas: the rules all programs keep to. Mutexes are taken in a fixed order and given back,
the line is used only under `pm` and in whole queries, caches are assigned only under their lock
and only with what a query of the unit has just returned, fan profiles are sent only under `am` and
only with one mode changed relative to what the unit has just reported, and the channels are used
in turn.
-/
namespace Comfo
open Spec Props

/-- The order in which mutexes are taken. -/
def Lock.rank : Lock → Nat
  | .temp => 0
  | .fan => 1
  | .am => 2
  | .cache _ => 3
  | .pm => 4

/-- Ghost state of a goroutine. -/
structure G1 where
  held : List (Lock × Bool) := []
  /-- Traffic since `pm` was taken. -/
  tx : List IoEv := []
  /-- Remember the last query? -/
  recd : Bool := false
  /-- The last query. -/
  done : List IoEv := []
  /-- The cache being refreshed, and since when. -/
  ref : Option (CacheId × Int) := none
  /-- The request sent to the worker whose answer is awaited. -/
  await : Option Int := none
  /-- The request the worker has answered. -/
  served : Option Int := none
  /-- Worker: the request to answer. -/
  owes : Option Int := none
  isWorker : Bool := false
  /-- Caches are only read under their lock. -/
  strict : CacheId → Bool := fun _ => false
  /-- The fan percentages it may send in one command. -/
  raw : Option (List UInt8) := none
  /-- The change of fan profiles to be made: mode and percentage. -/
  job : Option (UInt8 × UInt8) := none
  /-- A fan-profile command has been sent. -/
  spent : Bool := false
  /-- The unit has answered the fan-profile command. -/
  cfOk : Bool := false

def G1.push (g : G1) (l : Lock) (b : Bool := true) : G1 := { g with held := (l, b) :: g.held }

def G1.Free (g : G1) (l : Lock) : Prop := ∀ h ∈ g.held, h.1.rank < l.rank

/-- A fan-profile command. -/
def isCF (bs : List UInt8) : Bool := bs.getD 3 0 == 0xCF

def startsCF : List IoEv → Bool
  | .wrote bs _ :: _ => isCF bs
  | _ => false

/-- The fan-profile command changes one mode relative to what the unit has just reported. -/
def G1.CFok (g : G1) (bs : List UInt8) : Prop :=
  ∃ m s q fp, g.job = some (m, s) ∧ g.spent = false ∧ (.am, true) ∈ g.held ∧
    Transaction 0xCD [] true g.done (q, none) ∧ decode .profiles q.data = some fp ∧
    bs = frame 0xCF (replaceMode m.toNat s (percentages fp))

/-- The fan-profile command is one the goroutine may send. -/
def G1.Sends (g : G1) (bs : List UInt8) : Prop :=
  (∃ d, g.raw = some d ∧ g.spent = false ∧ bs = frame 0xCF d) ∨ g.CFok bs

def must1 (g : G1) : Act → Prop
  | .lock l => g.await = none ∧ g.Free l
  | .rlock l => g.await = none ∧ g.Free l ∧ l ≠ .pm
  | .unlock l => g.await = none ∧ (l, true) ∈ g.held ∧ (l = .pm → g.tx = [] ∨ WholeQuery g.tx)
  | .runlock l => g.await = none ∧ (l, false) ∈ g.held ∧ l ≠ .pm
  | .wrote bs r => g.await = none ∧ (.pm, true) ∈ g.held ∧ PartOfQuery (g.tx ++ [.wrote bs r]) ∧
      (isCF bs = true → g.Sends bs)
  | .got e r => g.await = none ∧ (.pm, true) ∈ g.held ∧ PartOfQuery (g.tx ++ [.got e r])
  | .load id _ => g.await = none ∧ (g.strict id = true → ∃ b, (.cache id, b) ∈ g.held)
  | .store id e => g.await = none ∧ (.cache id, true) ∈ g.held ∧ ∃ q, g.ref = some (id, e.last) ∧
      Transaction (requestCode id) [] true g.done (q, none) ∧ decode id q.data = some e.val
  | .now _ => g.await = none
  | .sleep _ => g.await = none
  | .note id _ => g.await = none ∧ (.cache id, true) ∈ g.held ∧ g.ref = none
  | .sendFlush _ => g.await = none ∧ g.held = [] ∧ g.isWorker = false
  | .recvFlushed _ => g.await ≠ none ∧ g.held = []
  | .sendFlushed b => g.await = none ∧ g.held = [] ∧ ∃ t, g.owes = some t ∧ b = knownCache t

def may1 (g : G1) : Act → Prop
  | .recvFlushed b => ∀ t, g.await = some t → b = knownCache t
  | _ => True

def post1 (g : G1) : Act → G1
  | .lock l => { g.push l with recd := g.recd || l == .am }
  | .rlock l => g.push l false
  | .unlock l =>
    if l = .pm then
      { g with held := g.held.filter (· ≠ (l, true)), tx := []
               done := if g.recd then g.tx else g.done }
    else { g with held := g.held.filter (· ≠ (l, true)), recd := false, done := [], ref := none }
  | .runlock l => { g with held := g.held.filter (· ≠ (l, false)) }
  | .wrote bs r => { g with tx := g.tx ++ [.wrote bs r], spent := isCF bs || g.spent }
  | .got e r => { g with tx := g.tx ++ [.got e r]
                         cfOk := g.cfOk || (startsCF g.tx && r.2.isNone) }
  | .store _ _ => { g with ref := none, done := [] }
  | .note id t => { g with ref := some (id, t), recd := true, done := [] }
  | .sendFlush t => { g with await := some t }
  | .recvFlushed _ => { g with await := none, served := g.await }
  | .sendFlushed _ => { g with owes := none }
  | _ => g

def R1 : Rules G1 where
  may := may1
  must := must1
  post := post1

variable {g : G1}

theorem free_not_mem {l : Lock} {b : Bool} (h : g.Free l) : (l, b) ∉ g.held :=
  fun hm => absurd (h _ hm) (Nat.lt_irrefl _)

theorem filter_push {l : Lock} {b : Bool} (h : g.Free l) :
    ((l, b) :: g.held).filter (· ≠ (l, b)) = g.held := by
  have hn : ∀ x ∈ g.held, decide (x ≠ (l, b)) = true := by
    intro x hx
    have := h x hx
    simp only [ne_eq, decide_eq_true_eq]
    rintro rfl
    exact absurd this (Nat.lt_irrefl _)
  rw [List.filter_cons_of_neg (by simp)]
  exact List.filter_eq_self.mpr hn

theorem push_free {l l' : Lock} {b : Bool} (h : g.Free l') (hr : l.rank < l'.rank) :
    (g.push l b).Free l' := by
  intro x hx
  rcases List.mem_cons.mp hx with rfl | hx
  · exact hr
  · exact h x hx

theorem free_mono {l l' : Lock} (h : g.Free l) (hr : l.rank ≤ l'.rank) : g.Free l' :=
  fun x hx => Nat.lt_of_lt_of_le (h x hx) hr

/-- Outside of queries and refreshes. -/
structure G1.Calm (g : G1) : Prop where
  await : g.await = none
  tx : g.tx = []
  recd : g.recd = false
  done : g.done = []
  ref : g.ref = none

theorem calm_push {l : Lock} {b : Bool} (h : g.Calm) : (g.push l b).Calm :=
  ⟨h.await, h.tx, h.recd, h.done, h.ref⟩

theorem ok_lock {Q : G1 → α → Prop} {l : Lock} {k : Prog α} (ha : g.await = none) (hf : g.Free l)
    (hl : l ≠ .am) (hk : k.Ok R1 Q (g.push l)) : (Prog.lock l k).Ok R1 Q g := by
  refine fun _ => ⟨⟨ha, hf⟩, ?_⟩
  have : post1 g (.lock l) = g.push l := by
    have : (l == .am) = false := by simpa using hl
    simp only [post1, this, Bool.or_false]; rfl
  show k.Ok R1 Q (post1 g (.lock l))
  rw [this]; exact hk

/-- Give back a lock other than `pm` that was taken in the calm state `g`. -/
theorem ok_unlock {Q : G1 → α → Prop} {l : Lock} {k : Prog α} (hc : g.Calm) (hf : g.Free l)
    (hl : l ≠ .pm) {recd : Bool} {done : List IoEv} {ref : Option (CacheId × Int)}
    (hk : k.Ok R1 Q g) :
    (Prog.unlock l k).Ok R1 Q { g.push l with recd := recd, done := done, ref := ref } := by
  refine fun _ => ⟨⟨hc.await, List.mem_cons_self, fun h => absurd h hl⟩, ?_⟩
  have : post1 { g.push l with recd := recd, done := done, ref := ref } (.unlock l) = g := by
    simp only [post1, G1.push, filter_push hf, if_neg hl]
    rw [← hc.recd, ← hc.done, ← hc.ref]
  show k.Ok R1 Q (post1 _ (.unlock l))
  rw [this]; exact hk

theorem ok_unlock' {Q : G1 → α → Prop} {l : Lock} {k : Prog α} (hc : g.Calm) (hf : g.Free l)
    (hl : l ≠ .pm) (hk : k.Ok R1 Q g) : (Prog.unlock l k).Ok R1 Q (g.push l) :=
  ok_unlock (recd := g.recd) (done := g.done) (ref := g.ref) hc hf hl hk

/-- The ghost state after a query. -/
def G1.queried (g : G1) (cmd : UInt8) (evs : List IoEv) : G1 :=
  { g with
    done := if g.recd then evs else g.done
    spent := cmd == 0xCF || g.spent
    cfOk := g.cfOk || (cmd == 0xCF && evs.any fun | .got _ (_, none) => true | _ => false) }

theorem isCF_frame (c : UInt8) (d : List UInt8) : isCF (frame c d) = (c == 0xCF) := rfl
theorem isCF_ack : isCF ack = false := by decide

theorem queried_calm {cmd : UInt8} {evs : List IoEv} (h : g.recd = false) (hc : cmd ≠ 0xCF) :
    g.queried cmd evs = g := by
  have : (cmd == 0xCF) = false := by simpa using hc
  simp only [G1.queried, h, this, Bool.false_and, Bool.false_or, Bool.or_false, Bool.false_eq_true,
    if_false]
  rw [← h]

theorem ok_unlock_pm {Q : G1 → α → Prop} {k : Prog α} {cmd : UInt8} (ha : g.await = none)
    (hf : g.Free .pm) (ht : g.tx = []) {tx : List IoEv} (htx : WholeQuery tx)
    {spent cfOk : Bool} (hk : k.Ok R1 Q (g.queried cmd tx))
    (hj : spent = (cmd == 0xCF || g.spent))
    (hcf : cfOk = (g.cfOk || (cmd == 0xCF && tx.any fun | .got _ (_, none) => true | _ => false))) :
    (Prog.unlock .pm k).Ok R1 Q { g.push .pm with tx := tx, spent := spent, cfOk := cfOk } := by
  refine fun _ => ⟨⟨ha, List.mem_cons_self, fun _ => .inr htx⟩, ?_⟩
  have : post1 { g.push .pm with tx := tx, spent := spent, cfOk := cfOk } (.unlock .pm) =
      g.queried cmd tx := by
    simp only [post1, G1.push, filter_push hf, if_true, hj, hcf, G1.queried, ht]
  show k.Ok R1 Q (post1 _ (.unlock .pm))
  rw [this]; exact hk

theorem wholeQuery_part {evs : List IoEv} (h : WholeQuery evs) : PartOfQuery evs :=
  ⟨[], by simpa using h⟩

theorem ok_query_gen {Q : G1 → Packet × Option Err → Prop} (p : Packet) (hp : p.data.length ≤ 255)
    (ha : g.await = none) (hf : g.Free .pm) (ht : g.tx = [])
    (hcf : p.command = 0xCF → g.Sends (frame p.command p.data))
    (hQ : ∀ evs r, Transaction p.command p.data p.expect evs r → Q (g.queried p.command evs) r) :
    (queryPacketP p).Ok R1 Q g := by
  have hcf2 : isCF (frame p.command p.data) = true →
      (g.push .pm).Sends (frame p.command p.data) := by
    intro h
    rw [isCF_frame] at h
    rcases hcf (by simpa using h) with h | ⟨m, s, q, fp, h1, hsp, h2, h3⟩
    · exact .inl h
    · exact .inr ⟨m, s, q, fp, h1, hsp, List.mem_cons_of_mem _ h2, h3⟩
  unfold queryPacketP
  refine ok_lock ha hf (by simp) ?_
  rw [marshal_ok p hp]
  simp only [frame_eq]
  have e0 : ∀ r : Nat × Option Err, post1 (g.push .pm) (.wrote (frame p.command p.data) r) =
      { g.push .pm with
        tx := [.wrote (frame p.command p.data) r]
        spent := p.command == 0xCF || g.spent
        cfOk := g.cfOk } := by
    intro r
    simp only [post1, isCF_frame, G1.push, ht, List.nil_append, beq_iff_eq]
  have e1 : ∀ (n : Nat) (r : Packet × Option Err) (spent cf : Bool),
      post1 { g.push .pm with
        tx := [.wrote (frame p.command p.data) (n, none)]
        spent := spent
        cfOk := cf } (.got p.expect r) =
      { g.push .pm with
        tx := [.wrote (frame p.command p.data) (n, none), .got p.expect r]
        spent := spent
        cfOk := cf || ((p.command == 0xCF) && r.2.isNone) } := fun _ _ _ _ => rfl
  have e2 : ∀ (evs : List IoEv) (r : Nat × Option Err) (spent cf : Bool),
      post1 { g.push .pm with tx := evs, spent := spent, cfOk := cf } (.wrote ack r) =
      { g.push .pm with tx := evs ++ [.wrote ack r], spent := spent, cfOk := cf } := by
    intro evs r spent cf
    simp only [post1, isCF_ack]; rfl
  rintro ⟨n, err⟩ -
  refine ⟨⟨ha, List.mem_cons_self, ?_, hcf2⟩, ?_⟩
  · rw [show (g.push .pm).tx = [] from ht]
    cases err with
    | some e => exact ⟨[], _, _, true, _, .writeFailed n e⟩
    | none => exact ⟨[.got true ({}, some .ack)], _, _, _, _, .readFailed n {} .ack⟩
  show Prog.Ok R1 Q _ (post1 _ (.wrote _ _))
  rw [e0]
  cases err with
  | some e =>
    have hq := Transaction.writeFailed (cmd := p.command) (data := p.data) (expect := p.expect) n e
    exact ok_unlock_pm (cmd := p.command) ha hf ht ⟨_, _, _, _, hq⟩ (hQ _ _ hq) rfl (by simp)
  | none =>
    rintro ⟨q, err⟩ -
    cases err with
    | some e =>
      have hq := Transaction.readFailed (cmd := p.command) (data := p.data) (expect := p.expect) n q e
      refine ⟨⟨ha, List.mem_cons_self, wholeQuery_part ⟨_, _, _, _, hq⟩⟩, ?_⟩
      show Prog.Ok R1 Q _ (post1 _ (.got _ _))
      rw [e1]
      exact ok_unlock_pm (cmd := p.command) ha hf ht ⟨_, _, _, _, hq⟩ (hQ _ _ hq) rfl (by simp)
    | none =>
      by_cases hc : p.expect = true ∧ q.command ≠ p.command + 1
      · have hq := Transaction.wrongReply (cmd := p.command) (data := p.data) (expect := p.expect)
          n q hc.1 hc.2
        refine ⟨⟨ha, List.mem_cons_self, wholeQuery_part ⟨_, _, _, _, hq⟩⟩, ?_⟩
        show Prog.Ok R1 Q _ (post1 _ (.got _ _))
        rw [e1]
        simp only [if_pos hc]
        exact ok_unlock_pm (cmd := p.command) ha hf ht ⟨_, _, _, _, hq⟩ (hQ _ _ hq) rfl (by simp)
      · have hc' : p.expect = true → q.command = p.command + 1 := by
          intro h
          by_cases h2 : q.command = p.command + 1
          · exact h2
          · exact absurd ⟨h, h2⟩ hc
        refine ⟨⟨ha, List.mem_cons_self, ⟨[_], ⟨_, _, _, _, .complete n q hc'⟩⟩⟩, ?_⟩
        show Prog.Ok R1 Q _ (post1 _ (.got _ _))
        rw [e1]
        simp only [if_neg hc]
        rintro ⟨m, err⟩ -
        have hnot : ∀ {P : Prop}, isCF pktAck = true → P :=
          fun h => absurd (h.symm.trans isCF_ack) (by simp)
        cases err with
        | some e =>
          have hq := Transaction.ackFailed (cmd := p.command) (data := p.data) (expect := p.expect)
            n q m e hc'
          refine ⟨⟨ha, List.mem_cons_self, wholeQuery_part ⟨_, _, _, _, hq⟩, hnot⟩, ?_⟩
          show Prog.Ok R1 Q _ (post1 _ (.wrote ack _))
          rw [e2]
          exact ok_unlock_pm (cmd := p.command) ha hf ht ⟨_, _, _, _, hq⟩ (hQ _ _ hq) rfl (by simp)
        | none =>
          have hq : Transaction p.command p.data p.expect
              [.wrote (frame p.command p.data) (n, none), .got p.expect (q, none),
               .wrote ack (m, none)] (q, if m ≠ pktAck.length then some .ack else none) := by
            by_cases hm : m = 2
            · subst hm; exact .complete n q hc'
            · have : m ≠ pktAck.length := hm
              rw [if_pos this]
              exact .ackShort n q m hc' hm
          refine ⟨⟨ha, List.mem_cons_self, wholeQuery_part ⟨_, _, _, _, hq⟩, hnot⟩, ?_⟩
          show Prog.Ok R1 Q _ (post1 _ (.wrote ack _))
          rw [e2]
          exact ok_unlock_pm (cmd := p.command) ha hf ht ⟨_, _, _, _, hq⟩ (hQ _ _ hq) rfl (by simp)

theorem ok_query_long {Q : G1 → Packet × Option Err → Prop} (p : Packet)
    (hp : ¬ p.data.length ≤ 255) (hc : g.Calm) (hf : g.Free .pm) (hQ : ∀ r, r.2 ≠ none → Q g r) :
    (queryPacketP p).Ok R1 Q g := by
  unfold queryPacketP
  refine ok_lock hc.await hf (by simp) ?_
  have : ∃ b e, marshalPacket p = (b, some e) := by
    unfold marshalPacket
    simp only [gt_iff_lt, if_pos (Nat.lt_of_not_le hp)]
    exact ⟨_, _, rfl⟩
  obtain ⟨b, e, hm⟩ := this
  rw [hm]
  refine fun _ => ⟨⟨hc.await, List.mem_cons_self, fun _ => .inl hc.tx⟩, ?_⟩
  have : post1 (g.push .pm) (.unlock .pm) = g := by
    simp only [post1, G1.push, filter_push hf, if_true, hc.recd, Bool.false_eq_true, if_false]
    rw [← hc.tx]; simp [← hc.recd]
  show Prog.Ok R1 Q _ (post1 _ (.unlock .pm))
  rw [this]; exact hQ _ (by simp)

theorem ok_setQuery_gen {Q : G1 → Option Err → Prop} (inp : SetRequest) (ha : g.await = none)
    (hf : g.Free .pm) (ht : g.tx = []) (hQ0 : ∀ e, Q g (some e))
    (hcf : ∀ bin, inp.marshalBinary = (bin, none) → inp.requestType = 0xCF →
      g.Sends (frame 0xCF bin))
    (hQ : ∀ bin evs q e, inp.marshalBinary = (bin, none) →
      Transaction inp.requestType bin false evs (q, e) → Q (g.queried inp.requestType evs) e) :
    (setQueryP inp).Ok R1 Q g := by
  unfold setQueryP encodeSetRequest
  have h0 : inp.requestType ≠ 0 := by cases inp <;> simp [SetRequest.requestType]
  simp only [h0, if_false]
  match hm : inp.marshalBinary with
  | (_, some e) => exact hQ0 _
  | (bin, none) =>
    have hl : bin.length ≤ 255 := by
      cases inp with
      | speed s =>
        simp only [SetRequest.marshalBinary] at hm
        split at hm <;> simp at hm
        subst hm; simp
      | comfort t =>
        simp only [SetRequest.marshalBinary] at hm
        split at hm <;> simp at hm
        subst hm; simp
      | fanProfiles q =>
        simp only [SetRequest.marshalBinary, Prod.mk.injEq] at hm
        rw [← hm.1]; simp
    refine ok_bind (ok_query_gen _ hl ha hf ht ?_ ?_)
    · intro h
      have h' : inp.requestType = 0xCF := h
      simp only [h']
      exact hcf bin hm h'
    · rintro evs ⟨q, e⟩ htr
      exact hQ bin evs q e hm htr

theorem ok_setQuery {Q : G1 → Option Err → Prop} (inp : SetRequest) (hc : g.Calm)
    (hf : g.Free .pm) (hcf : inp.requestType ≠ 0xCF) (hQ : ∀ r, Q g r) :
    (setQueryP inp).Ok R1 Q g := by
  refine ok_setQuery_gen inp hc.await hf hc.tx (fun _ => hQ _) (fun _ _ h => absurd h hcf) ?_
  intro bin evs q e _ _
  rw [queried_calm hc.recd hcf]
  exact hQ _

theorem requestCode_ne (id : CacheId) : requestCode id ≠ 0xCF := by cases id <;> decide

/-- A getter: what it returns is what the query just made says. -/
theorem ok_fetch_gen {id : CacheId} {Q : G1 → CVal id × Option Err → Prop} (ha : g.await = none)
    (hf : g.Free .pm) (ht : g.tx = [])
    (hQ : ∀ evs q e v e', Transaction (requestCode id) [] true evs (q, e) →
      (e' = none → e = none ∧ decode id q.data = some v) →
      Q { g with done := if g.recd then evs else g.done } (v, e')) : id.fetch.Ok R1 Q g := by
  refine ok_fetch id (ok_query_gen { command := requestCode id, expect := true } (by simp) ha hf ht
    (fun h => absurd h (requestCode_ne id)) ?_)
  rintro evs ⟨q, e⟩ htr
  have hq : g.queried (requestCode id) evs =
      { g with done := if g.recd then evs else g.done } := by
    have : (requestCode id == 0xCF) = false := by simpa using requestCode_ne id
    simp [G1.queried, requestCode_ne, this]
  constructor
  · rintro he
    simp only at he
    subst he
    obtain ⟨n, h, -⟩ := transaction_ok htr
    exact h
  · intro v e' h1 h2
    simp only [hq]
    exact hQ evs q e v e' htr fun he => ⟨(h1.1 he).1, h2 he⟩

theorem ok_fetch1 {id : CacheId} {Q : G1 → CVal id × Option Err → Prop} (hc : g.Calm)
    (hf : g.Free .pm) (hQ : ∀ r, Q g r) : id.fetch.Ok R1 Q g := by
  refine ok_fetch_gen hc.await hf hc.tx fun evs q e v e' _ _ => ?_
  have : ({ g with done := if g.recd then evs else g.done } : G1) = g := by
    simp only [hc.recd, Bool.false_eq_true, if_false]
    rw [← hc.recd]
  rw [this]; exact hQ _

theorem ok_update {Q : G1 → Unit → Prop} (id : CacheId) (force : Bool) (hc : g.Calm)
    (hf : g.Free (.cache id)) (hQ : Q g ()) : (update id force).Ok R1 Q g := by
  have refresh : ∀ now, (Prog.note id now <| id.fetch.bind fun (v, err) =>
      match err with
      | none => .store id { val := v, last := now } <| .unlock (.cache id) <| .ret ()
      | some _ => .unlock (.cache id) <| .ret ()).Ok R1 Q (g.push (.cache id)) := by
    intro now _
    refine ⟨⟨hc.await, List.mem_cons_self, hc.ref⟩, ok_bind (ok_fetch_gen hc.await
      (push_free (free_mono hf (by simp [Lock.rank])) (by simp [Lock.rank])) hc.tx ?_)⟩
    intro evs q e v e' htr h
    cases e' with
    | none =>
      obtain ⟨rfl, hd⟩ := h rfl
      refine fun _ => ⟨⟨hc.await, List.mem_cons_self, q, rfl, htr, hd⟩, ?_⟩
      exact ok_unlock (recd := true) (done := []) (ref := none) hc hf (by simp) hQ
    | some e =>
      exact ok_unlock (recd := true) (done := evs) (ref := some (id, now)) hc hf (by simp) hQ
  unfold update
  refine ok_lock hc.await hf (by simp) fun now _ => ⟨hc.await, ?_⟩
  cases force with
  | true => exact refresh now
  | false =>
    refine fun c _ => ⟨⟨hc.await, fun _ => ⟨true, List.mem_cons_self⟩⟩, ?_⟩
    by_cases hs : (!isStale c.last now) = true
    · simp only [hs, if_true]; exact ok_unlock' hc hf (by simp) hQ
    · simp only [hs]; exact refresh now

/-! ## Handlers -/

theorem ok_protobuf {β : Type} {id : CacheId} {conv : CVal id → β} {Q : G1 → Rpc β → Prop}
    (hc : g.Calm) (hf : g.Free (.cache id)) (hQ : ∀ r, Q g r) : (protobuf id conv).Ok R1 Q g :=
  ok_lock hc.await hf (by simp) fun _ _ =>
    ⟨⟨hc.await, fun _ => ⟨true, List.mem_cons_self⟩⟩, ok_unlock' hc hf (by simp) (hQ _)⟩

theorem ok_updateCaches {Q : G1 → Unit → Prop} {force : Bool} (hc : g.Calm) (hh : g.held = [])
    (hQ : Q g ()) : (updateCaches force).Ok R1 Q g := by
  have hf : ∀ l, g.Free l := by intro l x hx; rw [hh] at hx; cases hx
  exact ok_bind (ok_update _ _ hc (hf _) (ok_bind (ok_update _ _ hc (hf _) (ok_bind
    (ok_update _ _ hc (hf _) (ok_bind (ok_update _ _ hc (hf _) (ok_bind
      (ok_update _ _ hc (hf _) (ok_update _ _ hc (hf _) hQ))))))))))

theorem ok_flushCaches {Q : G1 → Unit → Prop} {t : Int} (hc : g.Calm) (hh : g.held = [])
    (ho : g.owes = some t) (hQ : Q { g with owes := none } ()) : (flushCaches t).Ok R1 Q g := by
  have hf : ∀ l, g.Free l := by intro l x hx; rw [hh] at hx; cases hx
  have answer : ∀ b, b = knownCache t → (Prog.sendFlushed b <| .ret ()).Ok R1 Q g :=
    fun b hb _ => ⟨⟨hc.await, hh, t, ho, hb⟩, hQ⟩
  unfold flushCaches
  split
  · rename_i h; exact ok_bind (ok_update _ _ hc (hf _) (answer _ (by subst h; decide)))
  split
  · rename_i h; exact ok_bind (ok_update _ _ hc (hf _) (answer _ (by subst h; decide)))
  split
  · rename_i h; exact ok_bind (ok_update _ _ hc (hf _) (answer _ (by subst h; decide)))
  split
  · rename_i h; exact ok_bind (ok_update _ _ hc (hf _) (answer _ (by subst h; decide)))
  split
  · rename_i h; exact ok_bind (ok_update _ _ hc (hf _) (answer _ (by subst h; decide)))
  split
  · rename_i h; exact ok_bind (ok_updateCaches hc hh (answer _ (by subst h; decide)))
  · exact answer _ (by simp [knownCache, *])

theorem ok_onTick {Q : G1 → Unit → Prop} {k : Tick} (hc : g.Calm) (hh : g.held = [])
    (hQ : Q g ()) : (onTick k).Ok R1 Q g := by
  have hf : ∀ l, g.Free l := by intro l x hx; rw [hh] at hx; cases hx
  cases k <;> exact ok_bind (ok_update _ _ hc (hf _) (ok_update _ _ hc (hf _) hQ))

theorem ok_setComfortTemp {Q : G1 → Rpc ComfortModified → Prop} {cv : FloatConv} {v : UInt32}
    (hc : g.Calm) (hh : g.held = []) (hs : g.strict .temps = false) (hQ : ∀ r, Q g r) :
    (setComfortTemp cv v).Ok R1 Q g := by
  have hf : ∀ l, g.Free l := by intro l x hx; rw [hh] at hx; cases hx
  unfold setComfortTemp
  refine fun start _ => ⟨hc.await, fun (c : Entry Temps) _ => ⟨⟨hc.await, fun h => ?_⟩, ?_⟩⟩
  · have : g.strict .temps = true := h
    simp [hs] at this
  show Prog.Ok R1 Q (if v > 255 then _ else _) g
  split
  · exact hQ _
  · split
    · refine ok_lock hc.await (hf _) (by simp) (ok_bind (ok_setQuery _ (calm_push hc)
        (push_free (hf _) (by simp [Lock.rank])) (by simp [SetRequest.requestType]) ?_))
      intro err
      cases err with
      | some e => exact ok_unlock' hc (hf _) (by simp) (hQ _)
      | none =>
        refine ok_bind (ok_update _ _ (calm_push hc) (push_free (hf _) (by simp [Lock.rank])) ?_)
        exact fun stop _ => ⟨hc.await, ok_unlock' hc (hf _) (by simp) (hQ _)⟩
    · exact fun stop _ => ⟨hc.await, hQ _⟩

theorem ok_pollLoop {Q : G1 → Option SrvErr → Prop} {a b : UInt8} {n : Nat} (hc : g.Calm)
    (hf : g.Free (.cache .fans)) (hs : g.strict .fans = false) (hQ : ∀ r, Q g r) :
    (pollLoop a b n).Ok R1 Q g := by
  induction n with
  | zero => exact hQ _
  | succ n ih =>
    refine ok_bind (ok_update _ _ hc hf fun (c : Entry Fans) _ =>
      ⟨⟨hc.await, fun h => by simp [hs] at h⟩, ?_⟩)
    show Prog.Ok R1 Q (if c.val.inPercent = a then _ else _) g
    split
    · refine fun (c : Entry Fans) _ => ⟨⟨hc.await, fun h => by simp [hs] at h⟩, ?_⟩
      show Prog.Ok R1 Q (if c.val.outPercent = b then _ else _) g
      split
      · exact hQ _
      · exact fun _ => ⟨hc.await, ih⟩
    · exact fun _ => ⟨hc.await, ih⟩

theorem ok_updatePoll {Q : G1 → Option SrvErr → Prop} {n : Nat} {tgt : UInt8} (hc : g.Calm)
    (hf : g.Free (.cache .profiles)) (hs : g.strict .fans = false) (h1 : 1 ≤ tgt.toNat)
    (h4 : tgt.toNat ≤ 4) (hQ : ∀ r, Q g r) : (updatePoll n tgt).Ok R1 Q g := by
  refine fun _ => ⟨⟨hc.await, hf, by simp⟩, fun (c : Entry FanProfiles) _ =>
    ⟨⟨hc.await, fun h => ?_⟩, ?_⟩⟩
  · exact ⟨false, List.mem_cons_self⟩
  · show Prog.Ok R1 Q (match FanProfiles.lookup c.val tgt with
      | (_, some e) => _
      | ((inPct, outPct), none) => _) _
    rw [lookup_ok _ h1 h4]
    refine fun _ => ⟨⟨hc.await, List.mem_cons_self, by simp⟩, ?_⟩
    have : post1 (g.push (.cache .profiles) false) (.runlock (.cache .profiles)) = g := by
      simp only [post1, G1.push, filter_push hf]
    show Prog.Ok R1 Q _ (post1 (g.push (.cache .profiles) false) (.runlock (.cache .profiles)))
    rw [this]
    exact ok_pollLoop hc hf hs hQ

theorem modifySpeed_range {b : UInt8} {abs : UInt32} {rel : Bool} {t : UInt8}
    (h : modifySpeed b abs rel = (t, none)) : 1 ≤ t.toNat ∧ t.toNat ≤ 4 := by
  unfold modifySpeed at h
  split at h
  · simp at h
  · have key : ∀ x : UInt8, (if x < 1 ∨ x > 4 then (b, some (Twirp.invalidArgument (.speedRange x)))
        else (x, none)) = (t, none) → ¬ (t < 1 ∨ t > 4) := by
      intro x hx
      split at hx
      · simp at hx
      · rename_i hr
        simp only [Prod.mk.injEq, and_true] at hx
        exact hx ▸ hr
    · have hr := key _ h
      simp only [not_or, UInt8.not_lt, gt_iff_lt] at hr
      exact ⟨UInt8.le_iff_toNat_le.1 hr.1, UInt8.le_iff_toNat_le.1 hr.2⟩

theorem ok_setFanSpeed {Q : G1 → Rpc SpeedModified → Prop} {abs : UInt32} {rel : Bool}
    (hc : g.Calm) (hh : g.held = []) (hs : g.strict .fans = false)
    (hs' : g.strict .profiles = false) (hQ : ∀ r, Q g r) :
    (setFanSpeed abs rel).Ok R1 Q g := by
  have hf : ∀ l, g.Free l := by intro l x hx; rw [hh] at hx; cases hx
  have hp : ∀ l : Lock, 1 < l.rank → (g.push .fan).Free l := fun l hl => push_free (hf _) hl
  unfold setFanSpeed
  refine fun start _ => ⟨hc.await, ok_lock hc.await (hf _) (by simp) fun c _ =>
    ⟨⟨hc.await, fun h => ?_⟩, ?_⟩⟩
  · have : g.strict .profiles = true := h
    simp [hs'] at this
  show Prog.Ok R1 Q _ (g.push .fan)
  simp only
  match hm : modifySpeed c.val.currentMode abs rel with
  | (_, some e) => exact ok_unlock' hc (hf _) (by simp) (hQ _)
  | (tgt, none) =>
    obtain ⟨h1, h4⟩ := modifySpeed_range hm
    simp only
    split
    · refine ok_bind (ok_setQuery _ (calm_push hc) (hp _ (by simp [Lock.rank]))
        (by simp [SetRequest.requestType]) ?_)
      intro err
      cases err with
      | some e => exact ok_unlock' hc (hf _) (by simp) (hQ _)
      | none =>
        refine ok_bind (ok_updatePoll (calm_push hc) (hp _ (by simp [Lock.rank])) hs h1 h4 ?_)
        intro err
        cases err with
        | some e => exact ok_unlock' hc (hf _) (by simp) (hQ _)
        | none =>
          refine ok_bind (ok_update _ _ (calm_push hc) (hp _ (by simp [Lock.rank])) ?_)
          exact fun stop _ => ⟨hc.await, ok_unlock' hc (hf _) (by simp) (hQ _)⟩
    · exact fun stop _ => ⟨hc.await, ok_unlock' hc (hf _) (by simp) (hQ _)⟩

theorem patch_bytes (m s : UInt8) (hm : m.toNat ≤ 3) (fp : FanProfiles) :
    (SetRequest.fanProfiles (patchProfile m s fp)).marshalBinary =
      (replaceMode m.toNat s (percentages fp), none) := by
  have : m = 0 ∨ m = 1 ∨ m = 2 ∨ m = 3 := by
    have : m.toNat = 0 ∨ m.toNat = 1 ∨ m.toNat = 2 ∨ m.toNat = 3 := by omega
    rcases this with h | h | h | h
    · exact .inl (UInt8.toNat.inj h)
    · exact .inr (.inl (UInt8.toNat.inj h))
    · exact .inr (.inr (.inl (UInt8.toNat.inj h)))
    · exact .inr (.inr (.inr (UInt8.toNat.inj h)))
  rcases this with rfl | rfl | rfl | rfl <;> rfl

theorem transaction_done {cmd : UInt8} {data : List UInt8} {expect : Bool} {evs : List IoEv}
    {q : Packet} (h : Transaction cmd data expect evs (q, none)) :
    (evs.any fun | .got _ (_, none) => true | _ => false) = true := by
  cases h; rfl

theorem ok_setFanProfile {Q : G1 → Option Err → Prop} {m s : UInt8} (hc : g.Calm)
    (hf : g.Free .am) (hj : g.job = some (m, s)) (hsp : g.spent = false) (hQ0 : ∀ e, Q g (some e))
    (hQ : ∀ e cf, (e = none → cf = true) → Q { g with spent := true, cfOk := cf } e) :
    (setFanProfileP m s).Ok R1 Q g := by
  unfold setFanProfileP
  split
  · exact hQ0 _
  rename_i hm
  have hm3 : m.toNat ≤ 3 := by
    have := UInt8.le_iff_toNat_le.1 (UInt8.not_lt.1 hm); simpa using this
  split
  · exact hQ0 _
  refine fun _ => ⟨⟨hc.await, hf⟩, ?_⟩
  have e0 : post1 g (.lock .am) = { g.push .am with recd := true, done := [], ref := none } := by
    simp only [post1, G1.push, hc.done, hc.ref]; simp
  show Prog.Ok R1 Q _ (post1 g (.lock .am))
  rw [e0]
  refine ok_bind (ok_fetch_gen (id := .profiles) hc.await ?_ hc.tx ?_)
  · exact push_free (free_mono hf (by simp [Lock.rank])) (by simp [Lock.rank])
  intro evs q e v e' htr h
  cases e' with
  | some e =>
    exact ok_unlock (recd := true) (done := evs) (ref := none) hc hf (by simp) (hQ0 _)
  | none =>
    obtain ⟨rfl, hd⟩ := h rfl
    refine ok_bind (ok_setQuery_gen _ hc.await ?_ hc.tx ?_ ?_ ?_)
    · exact push_free (free_mono hf (by simp [Lock.rank])) (by simp [Lock.rank])
    · intro e
      exact ok_unlock (recd := true) (done := evs) (ref := none) hc hf (by simp) (hQ0 _)
    · intro bin hb _
      have hb := (patch_bytes m s hm3 v).symm.trans hb
      simp only [Prod.mk.injEq, and_true] at hb
      exact .inr ⟨m, s, q, v, hj, hsp, List.mem_cons_self, htr, hd, by rw [hb]⟩
    · intro bin evs2 q2 e2 _ htr2
      have hc2 : ∀ cf, ({ g with spent := true, cfOk := cf } : G1).Calm :=
        fun _ => ⟨hc.await, hc.tx, hc.recd, hc.done, hc.ref⟩
      refine ok_unlock (g := { g with spent := true, cfOk := _ }) (recd := true) (done := evs2)
        (ref := none) (hc2 _) hf (by simp) (hQ _ _ ?_)
      rintro rfl
      rw [transaction_done htr2]
      exact Bool.or_true _

theorem ok_setFanProfileRpc {Q : G1 → Rpc SpeedModified → Prop} {m t : UInt32}
    (hc : g.Calm) (hh : g.held = []) (hs : g.strict .profiles = false)
    (hj : g.job = some (m.toUInt8 - 1, t.toUInt8)) (hsp : g.spent = false)
    (hQ0 : ∀ e, Q g (.err e))
    (hQn : ∀ r : SpeedModified, r.modified = false → Q g (.ok r))
    (hQ : ∀ (r : Rpc SpeedModified) cf, (∀ v, r = .ok v → cf = true) →
      Q { g with spent := true, cfOk := cf } r) :
    (setFanProfileRpc m t).Ok R1 Q g := by
  have hf : ∀ l, g.Free l := by intro l x hx; rw [hh] at hx; cases hx
  have hp : ∀ l : Lock, 1 < l.rank → (g.push .fan).Free l := fun l hl => push_free (hf _) hl
  unfold setFanProfileRpc
  refine fun start _ => ⟨hc.await, ?_⟩
  show Prog.Ok R1 Q _ g
  simp only
  split
  · exact hQ0 _
  · rename_i hm
    split
    · exact hQ0 _
    · refine ok_lock hc.await (hf _) (by simp) ?_
      have hload : ∀ c : Entry (CVal .profiles), must1 (g.push .fan) (.load .profiles c) := by
        intro c
        exact ⟨hc.await, fun h => by
          rw [show (g.push .fan).strict .profiles = false from hs] at h; cases h⟩
      have cont : ∀ o : UInt8, (if o ≠ t.toUInt8 then
          (setFanProfileP (m.toUInt8 - 1) t.toUInt8).bind fun err =>
          match err with
          | some e => .unlock .fan <| .ret (.err (.internal (.lib e)))
          | none =>
            (update .profiles true).bind fun _ =>
            .now fun stop => .unlock .fan <| .ret (Rpc.ok
              { modified := true, originalSpeed := o.toUInt32, targetSpeed := t,
                reqTime := timeSub stop start : SpeedModified })
        else .now fun stop => .unlock .fan <| .ret (Rpc.ok
              { modified := false, originalSpeed := o.toUInt32, targetSpeed := t,
                reqTime := timeSub stop start : SpeedModified })).Ok R1 Q (g.push .fan) := by
        intro o
        split
        · refine ok_bind (ok_setFanProfile (calm_push hc) (hp _ (by simp [Lock.rank])) hj hsp ?_ ?_)
          · intro e
            exact ok_unlock' hc (hf _) (by simp) (hQ0 _)
          · intro e cf hcf
            have hc2 : ({ g with spent := true, cfOk := cf } : G1).Calm :=
              ⟨hc.await, hc.tx, hc.recd, hc.done, hc.ref⟩
            cases e with
            | some e =>
              exact ok_unlock' (g := { g with spent := true, cfOk := cf }) hc2 (hf _) (by simp)
                (hQ _ _ (by simp))
            | none =>
              refine ok_bind (ok_update (g := { g.push .fan with spent := true, cfOk := cf }) _ _
                (calm_push hc2) (hp _ (by simp [Lock.rank])) ?_)
              exact fun stop _ => ⟨hc.await, ok_unlock' (g := { g with spent := true, cfOk := cf })
                hc2 (hf _) (by simp) (hQ _ _ (fun _ _ => hcf rfl))⟩
        · exact fun stop _ => ⟨hc.await, ok_unlock' hc (hf _) (by simp) (hQn _ rfl)⟩
      rcases mode_cases hm with h | h | h | h
      · simp only [h, if_true]
        rw [h] at cont
        exact fun c _ => ⟨hload c, cont c.val.inAway⟩
      · simp only [h]
        rw [h] at cont
        exact fun c _ => ⟨hload c, cont c.val.inLow⟩
      · simp only [h]
        rw [h] at cont
        exact fun c _ => ⟨hload c, cont c.val.inMid⟩
      · simp only [h]
        rw [h] at cont
        exact fun c _ => ⟨hload c, cont c.val.inHigh⟩

theorem ok_flushCacheRpc {Q : G1 → Rpc FlushResponse → Prop} {t : Int}
    (hc : g.Calm) (hh : g.held = []) (hw : g.isWorker = false)
    (hQ : ∀ n, Q { g with served := some t } (.ok ⟨knownCache t, n⟩)) :
    (flushCacheRpc t).Ok R1 Q g := by
  unfold flushCacheRpc
  refine fun start _ => ⟨hc.await, fun _ => ⟨⟨hc.await, hh, hw⟩, fun b hb => ⟨⟨?_, hh⟩, ?_⟩⟩⟩
  · exact Option.some_ne_none t
  have hb : b = knownCache t := hb t rfl
  subst hb
  refine fun stop _ => ⟨rfl, ?_⟩
  have : post1 (post1 g (.sendFlush t)) (.recvFlushed (knownCache t)) =
      { g with served := some t } := by
    simp only [post1, ← hc.await]
  show Q (post1 (post1 (post1 g (.sendFlush t)) (.recvFlushed (knownCache t))) (.now stop)) _
  rw [this]; exact hQ _

/-! ## All requests -/

/-- The requests that read caches only under their lock. -/
def Call.readsLocked : Call → CacheId → Bool
  | .setComfort _, .temps => false
  | .setSpeed _ _, .fans => false
  | .setSpeed _ _, .profiles => false
  | .setProfile _ _, .profiles => false
  | _, _ => true

/-- The requests that overwrite all fan profiles. -/
def Call.sendsRaw : Call → Option (List UInt8)
  | .libQuery p => if p.command = 0xCF then some p.data else none
  | .libSetProfiles q => some (percentages q)
  | _ => none

/-- The change of fan profiles a request stands for. -/
def Call.job : Call → Option (UInt8 × UInt8)
  | .libSetProfile m s => some (m, s)
  | .setProfile m t => some (m.toUInt8 - 1, t.toUInt8)
  | _ => none

/-- Ghost state of a request that has just arrived. -/
def born1 (c : Call) : G1 := { strict := c.readsLocked, raw := c.sendsRaw, job := c.job }

def idle1 : G1 := { isWorker := true, strict := fun _ => true }

def flushing1 (t : Int) : G1 := { isWorker := true, strict := fun _ => true, owes := some t }

/-- When a request returns. -/
structure Returns (c : Call) (g : G1) (r : Resp) : Prop where
  held : g.held = []
  calm : g.Calm
  owes : g.owes = none
  flush : ∀ t, c = .flush t → g.served = some t ∧ ∃ n, r = .flushed (.ok ⟨knownCache t, n⟩)
  changed : Changed c r → g.cfOk = true

theorem born_calm (c : Call) : (born1 c).Calm := ⟨rfl, rfl, rfl, rfl, rfl⟩

theorem born_free (c : Call) (l : Lock) : (born1 c).Free l := fun x hx => by cases hx

theorem ok_call1 (cv : FloatConv) (c : Call) : (c.prog cv).Ok R1 (Returns c) (born1 c) := by
  have hc := born_calm c
  have hf := born_free c
  cases c with
  | getBoot => exact ok_map (ok_protobuf hc (hf _) fun _ => ⟨rfl, hc, rfl, by simp, by simp [Changed]⟩)
  | getBypass => exact ok_map (ok_protobuf hc (hf _) fun _ => ⟨rfl, hc, rfl, by simp, by simp [Changed]⟩)
  | getErrors => exact ok_map (ok_protobuf hc (hf _) fun _ => ⟨rfl, hc, rfl, by simp, by simp [Changed]⟩)
  | getFans => exact ok_map (ok_protobuf hc (hf _) fun _ => ⟨rfl, hc, rfl, by simp, by simp [Changed]⟩)
  | getProfiles =>
    exact ok_map (ok_protobuf hc (hf _) fun _ => ⟨rfl, hc, rfl, by simp, by simp [Changed]⟩)
  | getTemps => exact ok_map (ok_protobuf hc (hf _) fun _ => ⟨rfl, hc, rfl, by simp, by simp [Changed]⟩)
  | setComfort v =>
    exact ok_map (ok_setComfortTemp hc rfl rfl fun _ => ⟨rfl, hc, rfl, by simp, by simp [Changed]⟩)
  | setSpeed a r =>
    exact ok_map (ok_setFanSpeed hc rfl rfl rfl fun _ => ⟨rfl, hc, rfl, by simp, by simp [Changed]⟩)
  | setProfile m t =>
    refine ok_map (ok_setFanProfileRpc hc rfl rfl rfl rfl ?_ ?_ ?_)
    · intro e; exact ⟨rfl, hc, rfl, by simp, by simp [Changed]⟩
    · intro r hr; exact ⟨rfl, hc, rfl, by simp, by simp [Changed, hr]⟩
    · intro r cf h
      refine ⟨rfl, ⟨rfl, rfl, rfl, rfl, rfl⟩, rfl, by simp, ?_⟩
      cases r with
      | ok v => exact fun _ => h v rfl
      | err e => simp [Changed]
  | flush t =>
    refine ok_map (ok_flushCacheRpc hc rfl rfl fun n => ⟨rfl, ⟨rfl, rfl, rfl, rfl, rfl⟩, rfl, ?_,
      by simp [Changed]⟩)
    rintro t' h
    cases h
    exact ⟨rfl, n, rfl⟩
  | libQuery p =>
    by_cases hp : p.data.length ≤ 255
    · refine ok_map (ok_query_gen p hp rfl (hf _) rfl
        (fun h => .inl ⟨p.data, by simp [born1, Call.sendsRaw, h], rfl, by rw [h]⟩) ?_)
      rintro evs ⟨q, e⟩ htr
      refine ⟨rfl, ⟨rfl, rfl, rfl, rfl, rfl⟩, rfl, by simp, ?_⟩
      cases e with
      | some e => simp [Changed]
      | none =>
        intro h
        have h : p.command = 0xCF := h
        simp [G1.queried, h, transaction_done htr]
    · refine ok_map (ok_query_long p hp hc (hf _) ?_)
      rintro ⟨q, e⟩ he
      refine ⟨rfl, hc, rfl, by simp, ?_⟩
      cases e with
      | some e => simp [Changed]
      | none => exact absurd rfl he
  | libGet id => exact ok_map (ok_fetch1 hc (hf _) fun _ => ⟨rfl, hc, rfl, by simp, by simp [Changed]⟩)
  | libSetComfort v =>
    exact ok_map (ok_setQuery _ hc (hf _) (by simp [SetRequest.requestType])
      fun _ => ⟨rfl, hc, rfl, by simp, by simp [Changed]⟩)
  | libSetSpeed v =>
    exact ok_map (ok_setQuery _ hc (hf _) (by simp [SetRequest.requestType])
      fun _ => ⟨rfl, hc, rfl, by simp, by simp [Changed]⟩)
  | libSetProfile m s =>
    refine ok_map (ok_setFanProfile hc (hf _) rfl rfl ?_ ?_)
    · intro e; exact ⟨rfl, hc, rfl, by simp, by simp [Changed]⟩
    · intro e cf h
      refine ⟨rfl, ⟨rfl, rfl, rfl, rfl, rfl⟩, rfl, by simp, ?_⟩
      cases e with
      | some e => simp [Changed]
      | none => exact fun _ => h rfl
  | libSetProfiles q =>
    refine ok_map (ok_setQuery_gen _ rfl (hf _) rfl ?_ ?_ ?_)
    · intro e; exact ⟨rfl, hc, rfl, by simp, by simp [Changed]⟩
    · intro bin hb _
      simp only [SetRequest.marshalBinary, Prod.mk.injEq, and_true] at hb
      exact .inl ⟨bin, by rw [← hb]; rfl, rfl, rfl⟩
    · intro bin evs q e _ htr
      refine ⟨rfl, ⟨rfl, rfl, rfl, rfl, rfl⟩, rfl, by simp, ?_⟩
      cases e with
      | some e => simp [Changed]
      | none =>
        intro _
        simp [G1.queried, SetRequest.requestType, transaction_done htr]

end Comfo
