import Verif.Lemmas.Writes
import Verif.Spec.Load
/-!
Helper lemmas: how many requests to the unit a program may still send, whatever the other
goroutines do and even if it does not come to an end.
-/
namespace Comfo
open Spec

/-- `p` sends at most `n` more requests to the unit; a flush it asks for counts here. -/
def Prog.AtMost : Prog α → Nat → Prop
  | ret _, _ => True
  | panic, _ => True
  | lock _ k, n => k.AtMost n
  | unlock _ k, n => k.AtMost n
  | rlock _ k, n => k.AtMost n
  | runlock _ k, n => k.AtMost n
  | now k, n => ∀ t, (k t).AtMost n
  | sleep _ k, n => k.AtMost n
  | write bs k, n => ∃ m, (if bs = ack then 0 else 1) + m ≤ n ∧ ∀ r, (k r).AtMost m
  | read _ k, n => ∀ r, (k r).AtMost n
  | load _ k, n => ∀ c, (k c).AtMost n
  | store _ _ k, n => k.AtMost n
  | note _ _ k, n => k.AtMost n
  | sendFlush t k, n => ∃ m, flushLoad t + m ≤ n ∧ k.AtMost m
  | recvFlushed k, n => ∀ b, (k b).AtMost n
  | sendFlushed _ k, n => k.AtMost n

/-- What an action uses up. -/
def actLoad : Act → Nat
  | .wrote bs _ => if bs = ack then 0 else 1
  | .sendFlush t => flushLoad t
  | _ => 0

namespace Prog.AtMost

theorem mono {p : Prog α} {n m : Nat} (h : p.AtMost n) (hm : n ≤ m) : p.AtMost m := by
  induction p generalizing n m with
  | ret | panic => trivial
  | write bs k ih => obtain ⟨a, h1, h2⟩ := h; exact ⟨a, by omega, h2⟩
  | sendFlush t k ih => obtain ⟨a, h1, h2⟩ := h; exact ⟨a, by omega, h2⟩
  | _ => rename_i ih; first | exact ih h hm | exact fun t => ih t (h t) hm

theorem bind {p : Prog α} {f : α → Prog β} {n m : Nat} (h : p.AtMost n)
    (hf : ∀ a, (f a).AtMost m) : (p.bind f).AtMost (n + m) := by
  induction p generalizing n with
  | ret a => exact (hf a).mono (by omega)
  | panic => trivial
  | write bs k ih =>
    obtain ⟨a, h1, h2⟩ := h
    exact ⟨a + m, by omega, fun r => ih r (h2 r)⟩
  | sendFlush t k ih =>
    obtain ⟨a, h1, h2⟩ := h
    exact ⟨a + m, by omega, ih h2⟩
  | _ => rename_i ih; first | exact ih h | exact fun t => ih t (h t)

theorem map {p : Prog α} {f : α → β} {n : Nat} (h : p.AtMost n) : (p.map f).AtMost n :=
  h.bind (m := 0) fun _ => trivial

theorem next {p q : Prog α} {a : Act} {n : Nat} (h : p.AtMost n) (hn : p.Next a q) :
    ∃ m, actLoad a + m ≤ n ∧ q.AtMost m := by
  cases hn with
  | write r => obtain ⟨m, h1, h2⟩ := h; exact ⟨m, h1, h2 r⟩
  | sendFlush => exact h
  | now t => exact ⟨n, Nat.le_of_eq (Nat.zero_add n), h t⟩
  | read t => exact ⟨n, Nat.le_of_eq (Nat.zero_add n), h t⟩
  | load t => exact ⟨n, Nat.le_of_eq (Nat.zero_add n), h t⟩
  | recvFlushed t => exact ⟨n, Nat.le_of_eq (Nat.zero_add n), h t⟩
  | _ => exact ⟨n, Nat.le_of_eq (Nat.zero_add n), h⟩

end Prog.AtMost

theorem atMost_query (p : Packet) : (queryPacketP p).AtMost 1 := by
  unfold queryPacketP
  show Prog.AtMost (match marshalPacket p with
    | (_, some e) => _
    | (pb, none) => _) 1
  split
  · trivial
  · refine ⟨0, by split <;> omega, ?_⟩
    rintro ⟨n, err⟩
    cases err with
    | some e => trivial
    | none =>
      rintro ⟨out, err⟩
      cases err with
      | some e => trivial
      | none =>
        dsimp only
        split
        · trivial
        · refine ⟨0, by rw [show pktAck = ack from rfl]; simp, ?_⟩
          rintro ⟨m, err⟩
          cases err with
          | some e => trivial
          | none =>
            dsimp only
            split <;> trivial

theorem atMost_set (inp : SetRequest) : (setQueryP inp).AtMost 1 := by
  unfold setQueryP
  match encodeSetRequest inp with
  | (_, some e) => trivial
  | (p, none) => exact (atMost_query p).bind (m := 0) fun _ => trivial

theorem atMost_getter {β : Type} {gr : GetRequest} {zero : β} {assert : Response → Option β} :
    (getterP gr zero assert).AtMost 1 := by
  unfold getterP
  refine Prog.AtMost.bind (m := 0) (atMost_query (encodeGetRequest gr)) ?_
  rintro ⟨qp, e⟩
  cases e with
  | some e => trivial
  | none =>
    show Prog.AtMost (match decodeResponse qp with
      | .panic => _
      | .ret _ (some e) => _
      | .ret none none => _
      | .ret (some resp) none => _) 0
    split <;> try trivial
    show Prog.AtMost (match assert _ with
      | some v => _
      | none => _) 0
    split <;> trivial

theorem atMost_fetch (id : CacheId) : id.fetch.AtMost 1 := by
  cases id <;> exact atMost_getter

theorem atMost_update (id : CacheId) (force : Bool) : (update id force).AtMost 1 := by
  have hr : ∀ now : Int, Prog.AtMost (.note id now <| id.fetch.bind fun (v, err) =>
      match err with
      | none => .store id { val := v, last := now } <| .unlock (.cache id) <| .ret ()
      | some _ => .unlock (.cache id) <| .ret ()) 1 := by
    intro now
    refine Prog.AtMost.bind (m := 0) (atMost_fetch id) ?_
    rintro ⟨v, err⟩
    cases err <;> trivial
  unfold update
  intro now
  cases force
  · intro c
    show Prog.AtMost (ite _ _ _) 1
    split
    · trivial
    · exact hr now
  · exact hr now

theorem atMost_updates (ids : List CacheId) : (Props.updates ids).AtMost ids.length := by
  induction ids with
  | nil => trivial
  | cons id ids ih =>
    exact ((atMost_update _ _).bind fun _ => ih).mono (by simp; omega)

theorem atMost_flush (t : Int) : (flushCaches t).AtMost (flushLoad t) := by
  rw [Props.flushCaches_eq]
  have hl : ∀ ids, Props.flushTargets t = some ids → ids.length = flushLoad t := by
    intro ids h
    unfold Props.flushTargets at h
    unfold flushLoad
    repeat' split at h
    all_goals first
      | (cases h; rename_i e; subst e; rfl)
      | (cases h)
  split
  · rename_i ids h
    rw [← hl ids h]
    exact (atMost_updates _).bind (m := 0) fun _ => trivial
  · trivial

theorem atMost_tick (k : Tick) : (onTick k).AtMost 2 := by
  cases k <;> exact (atMost_update _ _).bind fun _ => atMost_update _ _

theorem atMost_poll (a b : UInt8) (n : Nat) : (pollLoop a b n).AtMost n := by
  induction n with
  | zero => trivial
  | succ n ih =>
    refine Prog.AtMost.mono ((atMost_update _ _).bind (m := n) fun _ => ?_) (by omega)
    intro f
    show Prog.AtMost (ite _ _ _) n
    split
    · intro g
      show Prog.AtMost (ite _ _ _) n
      split
      · trivial
      · exact ih
    · exact ih

theorem atMost_updatePoll (n : Nat) (t : UInt8) : (updatePoll n t).AtMost n := by
  intro c
  show Prog.AtMost (match FanProfiles.lookup _ t with
    | (_, some e) => _
    | ((inPct, outPct), none) => _) n
  split
  · trivial
  · exact atMost_poll _ _ _

theorem atMost_speed (abs : UInt32) (rel : Bool) : (setFanSpeed abs rel).AtMost 12 := by
  unfold setFanSpeed
  intro start c
  show Prog.AtMost (match modifySpeed _ abs rel with
    | (_, some e) => _
    | (tgtSpeed, none) => _) 12
  split
  · trivial
  · dsimp only
    split
    · refine Prog.AtMost.bind (n := 1) (m := 11) (atMost_set _) ?_
      intro err
      cases err with
      | some e => trivial
      | none =>
        refine Prog.AtMost.bind (n := 10) (m := 1) (atMost_updatePoll _ _) ?_
        intro err
        cases err with
        | some e => trivial
        | none => exact (atMost_update _ _).bind (m := 0) fun _ => fun _ => trivial
    · exact fun _ => trivial

theorem atMost_comfort (cv : FloatConv) (v : UInt32) : (setComfortTemp cv v).AtMost 2 := by
  unfold setComfortTemp
  intro start c
  show Prog.AtMost (if v > 255 then _ else _) 2
  split
  · trivial
  · split
    · refine Prog.AtMost.bind (n := 1) (m := 1) (atMost_set _) ?_
      intro err
      cases err with
      | some e => trivial
      | none => exact (atMost_update _ _).bind (m := 0) fun _ => fun _ => trivial
    · exact fun _ => trivial

theorem atMost_profile (mode pct : UInt8) : (setFanProfileP mode pct).AtMost 2 := by
  unfold setFanProfileP
  split
  · trivial
  split
  · trivial
  refine Prog.AtMost.bind (n := 1) (m := 1) (atMost_fetch .profiles) ?_
  rintro ⟨v, err⟩
  cases err with
  | some e => trivial
  | none => exact Prog.AtMost.bind (n := 1) (m := 0) (atMost_set _) fun _ => trivial

theorem atMost_profileRpc (m t : UInt32) : (setFanProfileRpc m t).AtMost 3 := by
  unfold setFanProfileRpc
  intro start
  show Prog.AtMost (ite _ _ _) 3
  split
  · trivial
  dsimp only
  split
  · trivial
  have cont : ∀ o : UInt8, Prog.AtMost (if o ≠ t.toUInt8 then
      (setFanProfileP (m.toUInt8 - 1) t.toUInt8).bind fun err =>
        match err with
        | some e => .unlock .fan <| .ret (.err (.internal (.lib e)))
        | none =>
          (update .profiles true).bind fun _ =>
          .now fun stop => .unlock .fan <| .ret (Rpc.ok
            (⟨true, o.toUInt32, t, timeSub stop start⟩ : SpeedModified))
      else .now fun stop => .unlock .fan <| .ret (Rpc.ok
            (⟨false, o.toUInt32, t, timeSub stop start⟩ : SpeedModified))) 3 := by
    intro o
    split
    · refine Prog.AtMost.bind (n := 2) (m := 1) (atMost_profile _ _) ?_
      intro err
      cases err with
      | some e => trivial
      | none => exact (atMost_update _ _).bind (m := 0) fun _ => fun _ => trivial
    · exact fun _ => trivial
  show Prog.AtMost (ite _ _ _) 3
  split
  · exact fun _ => cont _
  split
  · exact fun _ => cont _
  split
  · exact fun _ => cont _
  split
  · exact fun _ => cont _
  · trivial

theorem atMost_protobuf (id : CacheId) (conv : CVal id → β) : (protobuf id conv).AtMost 0 := by
  intro c
  trivial

/-- What a request may cost. -/
theorem atMost_call (cv : FloatConv) (c : Call) : (c.prog cv).AtMost (callLoad c) := by
  cases c with
  | getBoot | getBypass | getErrors | getFans | getProfiles | getTemps =>
    exact (atMost_protobuf _ _).map
  | setComfort v => exact (atMost_comfort cv v).map
  | setSpeed a r => exact (atMost_speed a r).map
  | setProfile m t => exact (atMost_profileRpc m t).map
  | flush t => exact Prog.AtMost.map fun _ => ⟨0, Nat.le_refl _, fun _ _ => trivial⟩
  | libQuery p => exact (atMost_query p).map
  | libGet id => exact (atMost_fetch id).map
  | libSetComfort v => exact (atMost_set _).map
  | libSetSpeed v => exact (atMost_set _).map
  | libSetProfile m s => exact (atMost_profile m s).map
  | libSetProfiles q => exact (atMost_set _).map

/-! ## Executions -/

theorem load_append (a b : List (Tid × Act)) : Spec.load (a ++ b) = Spec.load a + Spec.load b := by
  induction a with
  | nil => simp [Spec.load]
  | cons x a ih =>
    obtain ⟨t, y⟩ := x
    cases y <;> simp [Spec.load, ih, Nat.add_assoc]

theorem load_one {L : Line σ} {t : Tid} {a : Act} {sh sh' : Shared σ} (h : Acts L t a sh sh') :
    Spec.load [(t, a)] = actLoad a := by
  cases h <;> simp [Spec.load, actLoad]

/-- What is left to send for the requests, one number for each. -/
inductive Budgets : List Client → List Nat → Prop
  | nil : Budgets [] []
  | cons {c cs n ns} : c.prog.AtMost n → Budgets cs ns → Budgets (c :: cs) (n :: ns)

/-- A request takes a step. -/
theorem Budgets.modify {cs : List Client} {ns : List Nat} (h : Budgets cs ns) {i : Nat}
    {c : Client} (hc : cs[i]? = some c) {a : Act} {p : Prog Resp} (hn : c.prog.Next a p) :
    ∃ ms, Budgets (cs.modify i fun c => { c with prog := p }) ms ∧ ms.sum + actLoad a ≤ ns.sum := by
  induction h generalizing i with
  | nil => simp at hc
  | @cons d ds n ns h1 h2 ih =>
    cases i with
    | zero =>
      cases hc
      obtain ⟨m, h3, h4⟩ := h1.next hn
      exact ⟨m :: ns, .cons h4 h2, by simp; omega⟩
    | succ i =>
      obtain ⟨ms, h3, h4⟩ := ih hc
      exact ⟨n :: ms, .cons h1 h3, by simp; omega⟩

theorem Budgets.snoc {cs : List Client} {ns : List Nat} (h : Budgets cs ns) {c : Client} {n : Nat}
    (hc : c.prog.AtMost n) : Budgets (cs ++ [c]) (ns ++ [n]) := by
  induction h with
  | nil => exact .cons hc .nil
  | cons h1 _ ih => exact .cons h1 ih

theorem calls_modify (cs : List Client) (i : Nat) (p : Prog Resp) :
    (cs.modify i fun c => { c with prog := p }).map (fun c => callLoad c.call) =
      cs.map fun c => callLoad c.call := by
  induction cs generalizing i with
  | nil => simp
  | cons c cs ih =>
    cases i with
    | zero => rfl
    | succ i =>
      rw [List.modify_succ_cons, List.map_cons, List.map_cons, ih]

/-- What has been sent and what is still to be sent. -/
def LoadInv (n : Nat) (s : Sys σ) : Prop :=
  ∃ ns m, Budgets s.clients ns ∧ s.worker.AtMost m ∧
    Spec.load s.sh.trace + ns.sum + m ≤ 2 * n + (s.clients.map fun c => callLoad c.call).sum

theorem LoadInv.work {L : Line σ} {n : Nat} {s s' : Sys σ} (h : LoadInv n s) (hw : Work L s s') :
    LoadInv n s' := by
  obtain ⟨ns, m, h1, h2, h3⟩ := h
  cases hw with
  | client i c a p sh hc hn ha =>
    obtain ⟨ms, h4, h5⟩ := h1.modify hc hn
    refine ⟨ms, m, h4, h2, ?_⟩
    show Spec.load sh.trace + _ + _ ≤ 2 * n + ((s.clients.modify _ _).map _).sum
    rw [calls_modify, acts_trace ha, load_append, load_one ha]
    omega
  | worker a p sh hn ha =>
    obtain ⟨m', h4, h5⟩ := h2.next hn
    refine ⟨ns, m', h1, h5, ?_⟩
    show Spec.load sh.trace + _ + _ ≤ 2 * n + (s.clients.map _).sum
    rw [acts_trace ha, load_append, load_one ha]
    omega
  | flush i c t p hc hn hi =>
    obtain ⟨ms, h4, h5⟩ := h1.modify hc hn
    refine ⟨ms, flushLoad t, h4, atMost_flush t, ?_⟩
    show Spec.load (s.sh.trace ++ [_]) + _ + _ ≤ 2 * n + ((s.clients.modify _ _).map _).sum
    rw [calls_modify, load_append]
    have : actLoad (.sendFlush t) = flushLoad t := rfl
    simp only [Spec.load]
    omega
  | flushed i c b p q hc hn hq =>
    obtain ⟨ms, h4, h5⟩ := h1.modify hc hn
    obtain ⟨m', h6, h7⟩ := h2.next hq
    refine ⟨ms, m', h4, h7, ?_⟩
    show Spec.load (s.sh.trace ++ [_, _]) + _ + _ ≤ 2 * n + ((s.clients.modify _ _).map _).sum
    rw [calls_modify, load_append]
    simp only [Spec.load]
    omega

theorem loadInv {S : Setup σ} {w : World σ} {n : Nat} {s : Sys σ}
    (h : Spec.Run S (Sys.initial w) n s) : LoadInv n s := by
  induction h with
  | start => exact ⟨[], 0, .nil, trivial, Nat.le_refl _⟩
  | tick k _ hi ih =>
    obtain ⟨ns, m, h1, h2, h3⟩ := ih
    refine ⟨ns, 2, h1, atMost_tick k, ?_⟩
    dsimp only
    omega
  | work _ hw ih => exact ih.work hw
  | arrive c _ _ ih =>
    obtain ⟨ns, m, h1, h2, h3⟩ := ih
    refine ⟨ns ++ [callLoad c], m, h1.snoc (atMost_call _ c), h2, ?_⟩
    simp only [List.map_append, List.sum_append, List.map_cons, List.map_nil, List.sum_cons,
      List.sum_nil] at h3 ⊢
    omega
  | environment line ns _ _ ih => exact ih

end Comfo
