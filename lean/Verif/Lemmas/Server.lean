import Verif.Model.Server
import Verif.Spec.Log
import Verif.Lemmas.Api
import Verif.Props.Api
/-! Helper lemmas: programs run alone. -/
namespace Comfo
open Spec

theorem run_bind (L : Line σ) (p : Prog α) (f : α → Prog β) (w : World σ) :
    (p.bind f).run L w = match p.run L w with
      | (some a, w') => (f a).run L w'
      | (none, w') => (none, w') := by
  induction p generalizing w with
  | read e k ih =>
    simp only [Prog.bind, Prog.run]
    match L.read e w.line with
    | (.panic, l) => rfl
    | (.ret q err, l) => exact ih _ _
  | _ => simp_all [Prog.bind, Prog.run]

theorem run_bind_some {L : Line σ} {p : Prog α} {f : α → Prog β} {w w' : World σ} {a : α}
    (h : p.run L w = (some a, w')) : (p.bind f).run L w = (f a).run L w' := by
  rw [run_bind, h]

theorem bind_ret (p : Prog Unit) : (p.bind fun _ => .ret ()) = p := by
  induction p with
  | ret a => rfl
  | recvFlushed k ih => exact congrArg Prog.recvFlushed (funext ih)
  | _ => simp_all [Prog.bind]

theorem bind_assoc (p : Prog α) (f : α → Prog β) (g : β → Prog γ) :
    (p.bind f).bind g = p.bind fun a => (f a).bind g := by
  induction p with
  | recvFlushed k ih => exact congrArg Prog.recvFlushed (funext ih)
  | _ => simp_all [Prog.bind]

/-- The line does not make `ReadPacket` panic. -/
def Line.NoPanic (L : Line σ) : Prop := ∀ e s, (L.read e s).1 ≠ .panic

theorem scriptLine_noPanic : scriptLine.NoPanic := fun e c => readPacket_ne_panic c e

/-- `w` after some I/O. -/
def World.after (w : World σ) (line : σ) (evs : List IoEv) : World σ :=
  { w with line := line, io := w.io ++ evs }

@[simp] theorem after_after (w : World σ) (l1 l2 : σ) (e1 e2 : List IoEv) :
    (w.after l1 e1).after l2 e2 = w.after l2 (e1 ++ e2) := by
  simp [World.after]

theorem log_eq (w : World σ) (l : σ) (ev : IoEv) :
    World.log { w with line := l } ev = w.after l [ev] := rfl

theorem log_eq' (w : World σ) (ev : IoEv) : World.log w ev = w.after w.line [ev] := rfl

@[simp] theorem after_line (w : World σ) (l : σ) (e : List IoEv) : (w.after l e).line = l := rfl
@[simp] theorem after_io (w : World σ) (l : σ) (e : List IoEv) : (w.after l e).io = w.io ++ e := rfl
@[simp] theorem after_get (w : World σ) (l : σ) (e : List IoEv) (id : CacheId) :
    (w.after l e).get id = w.get id := by cases id <;> rfl
@[simp] theorem after_clock (w : World σ) (l : σ) (e : List IoEv) :
    (w.after l e).clock = w.clock := rfl
@[simp] theorem tick_get (w : World σ) (id : CacheId) : w.tick.get id = w.get id := by
  cases id <;> rfl
@[simp] theorem tick_io (w : World σ) : w.tick.io = w.io := rfl
@[simp] theorem tick_line (w : World σ) : w.tick.line = w.line := rfl
@[simp] theorem set_io (w : World σ) (id : CacheId) (e : Entry (CVal id)) :
    (w.set id e).io = w.io := by cases id <;> rfl
@[simp] theorem set_line (w : World σ) (id : CacheId) (e : Entry (CVal id)) :
    (w.set id e).line = w.line := by cases id <;> rfl
@[simp] theorem set_clock (w : World σ) (id : CacheId) (e : Entry (CVal id)) :
    (w.set id e).clock = w.clock := by cases id <;> rfl
@[simp] theorem set_get_same (w : World σ) (id : CacheId) (e : Entry (CVal id)) :
    (w.set id e).get id = e := by cases id <;> rfl
theorem set_get_other (w : World σ) {id id' : CacheId} (e : Entry (CVal id)) (h : id' ≠ id) :
    (w.set id e).get id' = w.get id' := by
  cases id <;> cases id' <;> first | rfl | exact absurd rfl h

/-- A new value arrives, or not. -/
def World.store (w : World σ) (id : CacheId) : Option (CVal id) → Int → World σ
  | some v, t => w.set id { val := v, last := t }
  | none, _ => w

@[simp] theorem store_io (w : World σ) (id : CacheId) (v : Option (CVal id)) (t : Int) :
    (w.store id v t).io = w.io := by cases v <;> simp [World.store]
@[simp] theorem store_line (w : World σ) (id : CacheId) (v : Option (CVal id)) (t : Int) :
    (w.store id v t).line = w.line := by cases v <;> simp [World.store]
@[simp] theorem store_clock (w : World σ) (id : CacheId) (v : Option (CVal id)) (t : Int) :
    (w.store id v t).clock = w.clock := by cases v <;> simp [World.store]
theorem store_get_other (w : World σ) {id id' : CacheId} (v : Option (CVal id)) (t : Int)
    (h : id' ≠ id) : (w.store id v t).get id' = w.get id' := by
  cases v with
  | none => rfl
  | some v => exact set_get_other w _ h
theorem store_get_same (w : World σ) (id : CacheId) (v : Option (CVal id)) (t : Int) :
    (w.store id v t).get id = match v with
      | some v => { val := v, last := t }
      | none => w.get id := by
  cases v <;> simp [World.store]

theorem tick_mono (w : World σ) : w.clock ≤ w.tick.clock := by
  unfold World.tick; simp; omega

theorem run_write (L : Line σ) (bs : List UInt8) (k : Nat × Option Err → Prog α) (w : World σ) :
    (Prog.write bs k).run L w = (k (L.write bs w.line).1).run L
      (w.after (L.write bs w.line).2 [.wrote bs (L.write bs w.line).1]) := rfl

theorem run_read {L : Line σ} {e : Bool} {w : World σ} {q : Packet} {err : Option Err} {l : σ}
    (h : L.read e w.line = (.ret q err, l)) (k : Packet × Option Err → Prog α) :
    (Prog.read e k).run L w = (k (q, err)).run L (w.after l [.got e (q, err)]) := by
  simp only [Prog.run, h]; rfl

/-- One query run alone, on any line. -/
theorem queryPacketP_run {L : Line σ} (hL : L.NoPanic) (p : Packet) (hp : p.data.length ≤ 255)
    (w : World σ) : ∃ line evs r, (queryPacketP p).run L w = (some r, w.after line evs) ∧
      Transaction p.command p.data p.expect evs r := by
  unfold queryPacketP
  rw [marshal_ok p hp]
  simp only [frame_eq]
  rw [Prog.run, run_write]
  match hw : L.write (frame p.command p.data) w.line with
  | ((n, some e), l) => exact ⟨l, _, _, rfl, .writeFailed n e⟩
  | ((n, none), l) =>
    simp only
    have hnp := hL p.expect l
    match hr : L.read p.expect l with
    | (.panic, _) => rw [hr] at hnp; simp at hnp
    | (.ret q (some e), l2) =>
      rw [run_read hr, after_after]
      exact ⟨l2, _, _, rfl, .readFailed n q e⟩
    | (.ret q none, l2) =>
      rw [run_read hr, after_after]
      simp only
      by_cases hc : p.expect = true ∧ q.command ≠ p.command + 1
      · rw [if_pos hc]
        exact ⟨l2, _, _, rfl, .wrongReply n q hc.1 hc.2⟩
      · have hc' : p.expect = true → q.command = p.command + 1 := by
          intro h
          by_cases h2 : q.command = p.command + 1
          · exact h2
          · exact absurd ⟨h, h2⟩ hc
        rw [if_neg hc, run_write, after_after]
        simp only [after_line]
        match hw2 : L.write pktAck l2 with
        | ((m, some e), l3) => exact ⟨l3, _, _, rfl, .ackFailed n q m e hc'⟩
        | ((m, none), l3) =>
          by_cases hm : m = 2
          · subst hm
            exact ⟨l3, _, _, rfl, .complete n q hc'⟩
          · have : m ≠ pktAck.length := hm
            simp only [if_pos this]
            exact ⟨l3, _, _, rfl, .ackShort n q m hc' hm⟩

/-- A set query run alone. -/
theorem setQueryP_run {L : Line σ} (hL : L.NoPanic) {s : SetRequest} {bin : List UInt8}
    (h : s.marshalBinary = (bin, none)) (hl : bin.length ≤ 255) (w : World σ) :
    ∃ line evs q e, (setQueryP s).run L w = (some e, w.after line evs) ∧
      Transaction s.requestType bin false evs (q, e) := by
  unfold setQueryP encodeSetRequest
  have : s.requestType ≠ 0 := by cases s <;> simp [SetRequest.requestType]
  simp only [this, if_false, h]
  obtain ⟨line, evs, ⟨q, e⟩, hr, ht⟩ := queryPacketP_run hL
    { command := s.requestType, data := bin, expect := false } hl w
  exact ⟨line, evs, q, e, by rw [run_bind_some hr]; rfl, ht⟩

theorem setQueryP_err {s : SetRequest} {bin : List UInt8} {e : Err}
    (h : s.marshalBinary = (bin, some e)) : setQueryP s = .ret (some e) := by
  unfold setQueryP encodeSetRequest
  have : s.requestType ≠ 0 := by cases s <;> simp [SetRequest.requestType]
  simp only [this, if_false, h]

/-- What a transaction with an expected reply says on success. -/
theorem transaction_ok {cmd : UInt8} {data : List UInt8} {evs : List IoEv} {q : Packet}
    (h : Transaction cmd data true evs (q, none)) :
    ∃ n, q.command = cmd + 1 ∧
      evs = [.wrote (frame cmd data) (n, none), .got true (q, none), .wrote ack (2, none)] := by
  cases h with
  | complete n _ h => exact ⟨n, h rfl, rfl⟩

/-- A getter run alone. `dec` is what the payload decodes to. -/
theorem getterP_run {L : Line σ} (hL : L.NoPanic) {β α : Type} {gr : GetRequest} {zero : α}
    {assert : Response → Option α} (unm : List UInt8 → Go β) (con : β → Response) (proj : β → α)
    (hd : ∀ pl, decodeResponse { command := gr.code + 1, data := pl } = (unm pl).map (some ∘ con))
    (hu : ∀ pl, unm pl ≠ .panic) (ha : ∀ b, assert (con b) = some (proj b)) (w : World σ) :
    ∃ line evs q e v e', (getterP gr zero assert).run L w = (some (v, e'), w.after line evs) ∧
      Transaction gr.code [] true evs (q, e) ∧
      (e' = none ↔ e = none ∧ ∃ b, unm q.data = .ret b none) ∧
      (∀ b, e = none → unm q.data = .ret b none → v = proj b) := by
  unfold getterP
  obtain ⟨line, evs, ⟨q, e⟩, hr, ht⟩ := queryPacketP_run hL (encodeGetRequest gr)
    (by simp [encodeGetRequest]) w
  have ht' : Transaction gr.code [] true evs (q, e) := ht
  refine ⟨line, evs, q, e, ?_⟩
  rw [run_bind_some hr]
  cases e with
  | some e => exact ⟨zero, some e, rfl, ht', by simp, by simp⟩
  | none =>
    obtain ⟨n, hc, -⟩ := transaction_ok ht'
    have hdq : decodeResponse q = (unm q.data).map (some ∘ con) := by
      rw [← hd]; unfold decodeResponse; rw [hc]
    simp only
    rw [hdq]
    match hu2 : unm q.data with
    | .panic => exact absurd hu2 (hu _)
    | .ret b (some e) =>
      exact ⟨zero, some e, by simp [Go.map, Prog.run], ht', by simp, by simp⟩
    | .ret b none =>
      refine ⟨proj b, none, by simp [Go.map, Prog.run, ha], ht', by simp, ?_⟩
      intro b' _ hb
      simp at hb; rw [hb]

/-- Fetching a cache's value, run alone. -/
theorem fetch_run {L : Line σ} (hL : L.NoPanic) (id : CacheId) (w : World σ) :
    ∃ line evs q e v e', id.fetch.run L w = (some (v, e'), w.after line evs) ∧
      Transaction (requestCode id) [] true evs (q, e) ∧
      (e' = none ↔ e = none ∧ (decode id q.data).isSome) ∧
      (e' = none → decode id q.data = some v) := by
  have fin : ∀ {β : Type} (u : Go β) (d : Option β) (v : β) (e e' : Option Err),
      d = okVal u →
      (e' = none ↔ e = none ∧ ∃ b, u = .ret b none) → (∀ b, e = none → u = .ret b none → v = b) →
      (e' = none ↔ e = none ∧ d.isSome) ∧ (e' = none → d = some v) := by
    intro β u d v e e' hd h1 h2
    subst hd
    constructor
    · rw [h1]
      apply and_congr_right
      intro _
      constructor
      · rintro ⟨b, rfl⟩; rfl
      · intro h
        match u, h with
        | .ret b none, _ => exact ⟨b, rfl⟩
    · intro he
      obtain ⟨he, b, hb⟩ := h1.1 he
      rw [h2 b he hb, hb]; rfl
  cases id with
  | boot =>
    obtain ⟨line, evs, q, e, v, e', h1, h2, h3, h4⟩ := getterP_run hL (gr := .bootloader)
      (zero := {}) (assert := fun | .bootInfo v => some v | _ => none)
      BootInfo.unmarshalBinary .bootInfo id (fun _ => rfl) Props.bootInfo_ne_panic (fun _ => rfl) w
    exact ⟨line, evs, q, e, v, e', h1, h2, fin _ (decode .boot q.data) v e e' rfl h3 h4⟩
  | bypass =>
    obtain ⟨line, evs, q, e, v, e', h1, h2, h3, h4⟩ := getterP_run hL (gr := .bypass)
      (zero := {}) (assert := fun | .bypass v => some v | _ => none)
      Bypass.unmarshalBinary .bypass id (fun _ => rfl) Props.bypass_ne_panic (fun _ => rfl) w
    exact ⟨line, evs, q, e, v, e', h1, h2, fin _ (decode .bypass q.data) v e e' rfl h3 h4⟩
  | temps =>
    obtain ⟨line, evs, q, e, v, e', h1, h2, h3, h4⟩ := getterP_run hL (gr := .temps)
      (zero := {}) (assert := fun | .temps v => some v | _ => none)
      Temps.unmarshalBinary .temps id (fun _ => rfl) Props.temps_ne_panic (fun _ => rfl) w
    exact ⟨line, evs, q, e, v, e', h1, h2, fin _ (decode .temps q.data) v e e' rfl h3 h4⟩
  | fans =>
    obtain ⟨line, evs, q, e, v, e', h1, h2, h3, h4⟩ := getterP_run hL (gr := .fans)
      (zero := {}) (assert := fun | .fans v => some v | _ => none)
      Fans.unmarshalBinary .fans id (fun _ => rfl) Props.fans_ne_panic (fun _ => rfl) w
    exact ⟨line, evs, q, e, v, e', h1, h2, fin _ (decode .fans q.data) v e e' rfl h3 h4⟩
  | profiles =>
    obtain ⟨line, evs, q, e, v, e', h1, h2, h3, h4⟩ := getterP_run hL (gr := .fanProfiles)
      (zero := {}) (assert := fun | .fanProfiles v => some v | _ => none)
      FanProfiles.unmarshalBinary .fanProfiles id (fun _ => rfl) Props.profiles_ne_panic
      (fun _ => rfl) w
    exact ⟨line, evs, q, e, v, e', h1, h2, fin _ (decode .profiles q.data) v e e' rfl h3 h4⟩
  | errors =>
    obtain ⟨line, evs, q, e, v, e', h1, h2, h3, h4⟩ := getterP_run hL (gr := .errors)
      (zero := {}) (assert := fun | .errors v => some v | _ => none)
      Errors.unmarshalBinary .errors id (fun _ => rfl) Props.errors_ne_panic (fun _ => rfl) w
    exact ⟨line, evs, q, e, v, e', h1, h2, fin _ (decode .errors q.data) v e e' rfl h3 h4⟩

/-! ## Refreshing a cache -/

theorem update_fresh (L : Line σ) {id : CacheId} {w : World σ}
    (h : isStale (w.get id).last w.tick.clock = false) :
    (update id false).run L w = (some (), w.tick) := by
  simp [update, Prog.run, h]

theorem update_refresh {L : Line σ} (hL : L.NoPanic) {id : CacheId} {force : Bool} {w : World σ}
    (h : force = true ∨ isStale (w.get id).last w.tick.clock = true) :
    ∃ line evs q e, Transaction (requestCode id) [] true evs (q, e) ∧
      (update id force).run L w = (some (),
        (w.tick.after line (.refresh id w.tick.clock :: evs)).store id
          (outcome id q e) w.tick.clock) := by
  obtain ⟨line, evs, q, e, v, e', hr, ht, h1, h2⟩ := fetch_run hL id
    (w.tick.after w.tick.line [.refresh id w.tick.clock])
  refine ⟨line, evs, q, e, ht, ?_⟩
  have key : (update id force).run L w = (id.fetch.bind fun (v, err) =>
      match err with
      | none => .store id { val := v, last := w.tick.clock } <| .unlock (.cache id) <| .ret ()
      | some _ => .unlock (.cache id) <| .ret ()).run L
        (w.tick.after w.tick.line [.refresh id w.tick.clock]) := by
    unfold update
    cases force with
    | true => simp only [Prog.run, if_true, log_eq']; rfl
    | false =>
      have h : isStale (w.get id).last w.tick.clock = true := by simpa using h
      simp only [Prog.run, h, log_eq', Bool.not_true, Bool.false_eq_true, if_false, tick_get]; rfl
  rw [key, run_bind_some hr]
  simp only [after_after, List.singleton_append]
  cases e' with
  | none =>
    have hd := h2 rfl
    have he := (h1.1 rfl).1
    simp [Prog.run, outcome, he, hd, World.store]
  | some e1 =>
    have : outcome id q e = none := by
      unfold outcome
      cases e with
      | some _ => rfl
      | none =>
        cases hdd : decode id q.data with
        | none => rfl
        | some x => simp [hdd] at h1
    simp [Prog.run, this, World.store]

/-- The two cases of `update` in one equation. -/
theorem update_run {L : Line σ} (hL : L.NoPanic) (id : CacheId) (force : Bool) (w : World σ) :
    (force = false ∧ isStale (w.get id).last w.tick.clock = false ∧
      (update id force).run L w = (some (), w.tick)) ∨
    ((force = true ∨ isStale (w.get id).last w.tick.clock = true) ∧
      ∃ line evs q e, Transaction (requestCode id) [] true evs (q, e) ∧
      (update id force).run L w = (some (),
        (w.tick.after line (.refresh id w.tick.clock :: evs)).store id
          (outcome id q e) w.tick.clock)) := by
  by_cases h : force = true ∨ isStale (w.get id).last w.tick.clock = true
  · exact .inr ⟨h, update_refresh hL h⟩
  · simp only [not_or, Bool.not_eq_true] at h
    obtain ⟨rfl, h2⟩ := h
    exact .inl ⟨rfl, h2, update_fresh L h2⟩

end Comfo
