import Verif.Props.EndToEnd
import Verif.Props.Path
/-!
# More on C61, C52 and C62

How long the failure to deliver a name lasts, and whom it hits; every method of a client with an
explicit loop; where the router of the server takes the requests of the Python client.
-/
namespace Comfo.Props
open Spec

theorem scan_keeps {id : CacheId} (mid : List (Tid × Act)) (s : Option (CVal id × Int) × (Tid → Cur))
    (h : s.1 ≠ none) : (mid.foldl (scanAct id) s).1 ≠ none := by
  induction mid generalizing s with
  | nil => exact h
  | cons x mid ih =>
    refine ih _ ?_
    unfold scanAct
    cases evOf x.2 with
    | none => exact h
    | some ev =>
      simp only
      obtain ⟨a, c⟩ := s
      rcases scanEv_fst id (c x.1) ev with h' | ⟨v, h'⟩
      · rw [h']; exact h
      · rw [h']; nofun

/-- Every name the unit has reported so far is not UTF-8. -/
def StrangeNames (s : Sys σ) : Prop :=
  ∀ t q b, (t, Act.got true (q, none)) ∈ s.sh.trace → q.command = 0x68 →
    decode .boot q.data = some b → validUtf8 b.deviceName = false

/-- **C61** (violated) It fails for ever: if all names the unit reports are not UTF-8, then once an
answer of `GetBootInfo` could not be encoded, no answer to a later request for it can be. -/
theorem C61_forever_violated {S : Setup σ} {w : World σ} {s₁ s₂ : Sys σ}
    (h₁ : Reachable S (Sys.initial w) s₁) (h₂ : Reachable S s₁ s₂)
    (h0 : validUtf8 w.boot.val.deviceName = true) (hs : StrangeNames s₂)
    {i : Nat} {r : Resp} (ha : Answered s₁ i .getBoot r) (hf : r.http = .marshalFailed)
    {j : Nat} {r' : Resp} (hj : s₁.clients.length ≤ j) (ha' : Answered s₂ j .getBoot r') :
    r'.http = .marshalFailed := by
  obtain ⟨pre, e, post, e1, e2, rfl⟩ := C37_served_concurrently (id := .boot) h₁ ha
  obtain ⟨mid, c, post', f1, f2, rfl⟩ := C58_no_going_back (id := .boot) h₁ h₂ hj ha'
  have hn : (scanAll .boot pre).1 ≠ none := by
    intro hn
    unfold current at e2
    rw [hn] at e2
    have hm : (getAnswer .boot e.val).marshals = true := by rw [e2]; exact h0
    rw [Resp.http, if_pos hm] at hf
    cases hf
  have hn' : (scanAll .boot (s₁.sh.trace ++ mid)).1 ≠ none := by
    rw [e1, List.append_assoc, scanAll_append]
    exact scan_keeps _ _ hn
  unfold current at f2
  match hv : (scanAll .boot (s₁.sh.trace ++ mid)).1 with
  | none => exact absurd hv hn'
  | some (v, t) =>
    rw [hv] at f2
    obtain ⟨u, q, k1, k2, k3⟩ :=
      scanAll_from (s₁.sh.trace ++ mid) [] (none, fun _ => .idle) (by simp) (by simp) _ hv
    have k4 := hs u q v (by rw [f1]; exact List.mem_append_left _ (by simpa using k1)) k2 k3
    have hm : (getAnswer .boot c.val).marshals = false := by rw [f2]; exact k4
    rw [Resp.http, hm]; rfl

/-- The network brings an answer of the server to a request that arrived after the first `n`, if it
could be encoded. It may also bring none. -/
def BringsLater (net : Call → ω → Option Resp × ω) (v : ω) (s : Sys σ) (n : Nat) : Prop :=
  ∀ c r, (net c v).1 = some r → r.http = .answer r ∧ ∃ j, n ≤ j ∧ Answered s j c r

/-- **C61** (violated) From then on the `ping` of the Python client, in both variants, never returns
and always raises. -/
theorem C61_ping_violated {ω : Type} {S : Setup σ} {w : World σ} {s₁ s₂ : Sys σ}
    (h₁ : Reachable S (Sys.initial w) s₁) (h₂ : Reachable S s₁ s₂)
    (h0 : validUtf8 w.boot.val.deviceName = true) (hs : StrangeNames s₂)
    {i : Nat} {r : Resp} (ha : Answered s₁ i .getBoot r) (hf : r.http = .marshalFailed)
    {net : Call → ω → Option Resp × ω} {v : ω} (hb : BringsLater net v s₂ s₁.clients.length)
    {p : Py PyVal} (hp : IsOp p .ping) : ∃ e, (p.run net v).1 = .error e := by
  match hx : p.run net v with
  | (.error e, _) => exact ⟨e, rfl⟩
  | (.ok x, v') =>
    exfalso
    have hs' : (syncOp .ping).run net v = (.ok x, v') := by
      rcases hp with rfl | ⟨self, rfl⟩
      · exact hx
      · rw [async_eq] at hx
        split at hx
        · exact hx
        · cases hx
    rw [C87_sync] at hs'
    obtain ⟨k1, -⟩ := Prod.mk.inj hs'
    cases hn : (net .getBoot v).1 with
    | none => rw [hn] at k1; cases k1
    | some r' =>
      obtain ⟨m1, j, hj, m2⟩ := hb _ _ hn
      have := C61_forever_violated h₁ h₂ h0 hs ha hf hj m2
      rw [m1] at this
      cases this

/-- Whether all names in a trace are not UTF-8. -/
def strangeB (tr : List (Tid × Act)) : Bool :=
  tr.all fun x => match x.2 with
    | .got true (q, none) => q.command != 0x68 ||
      ((decode .boot q.data).all fun b => !validUtf8 b.deviceName)
    | _ => true

theorem strange_of {s : Sys σ} (h : strangeB s.sh.trace = true) : StrangeNames s := by
  intro t q b hm hc hb
  have := List.all_eq_true.mp h _ hm
  simp only [hc, hb, bne_self_eq_false, Bool.false_or, Option.all_some, Bool.not_eq_true'] at this
  exact this

/-- A unit with such a name is read, and `GetBootInfo` asked. -/
def strangeCmds : List Cmd := [.arrive (.flush 0)] ++ steps 2 (.client 0) ++
  steps 10 .worker ++ steps 2 (.client 0) ++ [.arrive .getBoot] ++ steps 3 (.client 1)

/-- The state then. -/
def strangeSeen : Sys UInt8 :=
  (Sys.execs strangeName strangeCmds (Sys.initial demoStart)).getD (Sys.initial demoStart)

/-- The hypotheses are met, when `GetBootInfo` is asked again. -/
example : ∃ s r r', Reachable strangeName (Sys.initial demoStart) strangeSeen ∧
    Reachable strangeName strangeSeen s ∧
    validUtf8 demoStart.boot.val.deviceName = true ∧ StrangeNames s ∧
    Answered strangeSeen 1 .getBoot r ∧
    r.http = .marshalFailed ∧ strangeSeen.clients.length = 2 ∧ Answered s 2 .getBoot r' := by
  have h1 : Reachable strangeName (Sys.initial demoStart) strangeSeen :=
    execs_sound (cmds := strangeCmds) (fun _ _ => trivial) .start rfl
  have h2 := execs_sound (S := strangeName) (s₀ := strangeSeen) (s := strangeSeen)
    (cmds := [.arrive .getBoot] ++ steps 3 (.client 2)) (fun _ _ => trivial) .start rfl
  exact ⟨_, _, _, h1, h2, rfl, strange_of (by decide +kernel), rfl, rfl, rfl, rfl⟩

/-- **C52** (violated) Every asynchronous method of a client made with an explicit loop raises
`AttributeError` and asks the server for nothing, whatever loop is running. -/
theorem C52_methods_violated {ω : Type} (l : Nat) (running : Option Nat) (op : PyOp)
    (net : Call → ω → Option Resp × ω) (v : ω) :
    (asyncOp (pyInit (some l) running) op).run net v = (.error .attributeError, v) :=
  C87_async (pyInit (some l) running) op ω net v

/-- **C52** Without one, on the loop that is running: every asynchronous method does what its
synchronous variant does. Missing: clients made with an explicit loop. -/
theorem C52_methods_partial {ω : Type} (l : Nat) (op : PyOp)
    (net : Call → ω → Option Resp × ω) (v : ω) :
    (asyncOp (pyInit none (some l)) op).run net v = (syncOp op).run net v := by
  rw [async_eq]; rfl

/-- **C62** The router of the server takes the request of the Python client for a method to the handler
of that method, as protobuf, whatever the body. -/
theorem C62_routed (m m' : Method) (f : Fmt) (body : List UInt8) :
    router Twirp.cleanPath (clientReq m body) = .handler m' f ↔ m' = m ∧ f = .protobuf :=
  (C53_routing Twirp.cleanPath _ m' f).trans (C62_routes_agree Twirp.cleanPath routes_canonical m m' f body)

/-- A request with a body that is no message is routed as well. -/
example : router Twirp.cleanPath (clientReq .setFanSpeed [0xFF]) = .handler .setFanSpeed .protobuf :=
  (C62_routed _ _ _ _).2 ⟨rfl, rfl⟩

end Comfo.Props
