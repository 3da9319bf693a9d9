import Verif.Props.Name
import Verif.Props.Read
import Verif.Props.Shown
/-!
# What the unit shows is what the getters of the Python client return: C111
-/
namespace Comfo.Props
open Spec Pace

variable {σ : Type} {S : Setup σ} {w : World σ} {f : Nat → Sys σ}

theorem op_later {ω : Type} {s : Sys σ} {n : Nat} {net : Call → ω → Option Resp × ω} {u u' : ω}
    (hb : BringsLater net u s n) {p : Py PyVal} {op : PyOp} (hp : IsOp p op) {id : CacheId} (ho : op.cache = some id)
    {x : PyVal} (hr : p.run net u = (.ok x, u')) :
    ∃ i r, n ≤ i ∧ Answered s i (getCall id) r ∧ op.returns (some r) = .ok x := by
  have hs : (syncOp op).run net u = (.ok x, u') := by
    rcases hp with rfl | ⟨self, rfl⟩
    · exact hr
    · rw [async_eq] at hr
      split at hr
      · exact hr
      · cases hr
  rw [C87_sync op] at hs
  split at hs
  · cases hs
  · rename_i c hc
    have hcall : c = getCall id := by cases op <;> cases ho <;> cases hc <;> rfl
    subst hcall
    obtain ⟨h1, -⟩ := Prod.mk.inj hs
    cases hn : (net (getCall id) u).1 with
    | none =>
      rw [hn] at h1
      cases op <;> cases h1
    | some r =>
      rw [hn] at h1
      obtain ⟨-, i, hi, ha⟩ := hb _ r hn
      exact ⟨i, r, hi, ha, h1⟩

/-- **C111** (3) Since step `p` the unit works, and `P` holds of what it shows for cache `id`. Then a getter of the Python
client, in both variants, that begins after the bound of C111 and returns a value returns what the bytes of a reply stand
for that fulfils `P`. -/
theorem C111_python {ω : Type} {δ r A j : Nat} (T : Timely S w f δ r) (hA : JobsWithin f δ r A)
    (hw : ∀ id, (w.get id).last ≤ w.clock) {k : Tick} (hk : Ticking f k δ j) {id : CacheId} (hid : id ∈ tier k)
    {p n n' : Nat} (hn : (f p).sh.world.clock + (tickTime δ r A j k + 4500000000 : Nat) < (f n).sh.world.clock)
    (hnn : n ≤ n') {ext : List (Tid × Act)} (hext : (f n').sh.trace = (f p).sh.trace ++ ext)
    {P : CVal id → Prop} (hs : Shows id P ext) {op : PyOp} (ho : op.cache = some id)
    {net : Call → ω → Option Resp × ω} {u u' : ω} (hb : BringsLater net u (f n') (f n).clients.length)
    {q : Py PyVal} (hq : IsOp q op) {x : PyVal} (hr : q.run net u = (.ok x, u')) :
    ∃ pl v, decode id pl = some v ∧ P v ∧ op.Stands pl x := by
  obtain ⟨i, y, hi, ha, hx⟩ := op_later hb hq ho hr
  have hs' : Shows id (fun v => P v ∧ ∃ pl, decode id pl = some v) ext := by
    refine ⟨hs.writes, fun as t q err bs he hl => ?_⟩
    obtain ⟨h1, h2, v, h3, h4⟩ := hs.reply as t q err bs he hl
    exact ⟨h1, h2, v, h3, h4, _, h3⟩
  obtain ⟨v, ⟨h1, pl, h2⟩, rfl⟩ := C111_shown T hA hw hk hid hn hnn hext hs' hi ha
  exact ⟨pl, v, h2, h1, stands ho h2 hx⟩

/-- The execution of C111's example: the asynchronous `get_temps` returns a value, and C111 says which one. -/
example : ∃ x, ((asyncOp (pyInit none (some 1)) .getTemps).run (answers (ticks 148)) ()).1 = .ok x ∧
    ∃ pl, decode .temps pl = some ventTemps ∧ PyOp.getTemps.Stands pl x := by
  obtain ⟨x, hx⟩ : ∃ x, ((asyncOp (pyInit none (some 1)) .getTemps).run (answers (ticks 148)) ()).1 = .ok x := ⟨_, rfl⟩
  have noFlush : ∀ n, ∀ c ∈ (ticks n).clients, ∀ t, c.call ≠ .flush t := by
    intro n c hc t
    have : ∀ n, ((ticks n).clients.all fun c => c.call = .getTemps) = true :=
      ticks_all (P := fun s => (s.clients.all fun c => c.call = .getTemps) = true) (by decide +kernel)
    rw [of_decide_eq_true (List.all_eq_true.1 (this n) c hc)]
    exact nofun
  have brought : BringsLater (answers (ticks 148)) () (ticks 148) (ticks 144).clients.length := by
    intro c r hr
    obtain ⟨i, hi⟩ := answers_brings (ticks 148) c r hr
    refine ⟨?_, i, ?_, hi⟩
    · have := (List.all_eq_true.1 (show ((ticks 148).clients.all fun k => match k.prog with
        | .ret (.boot _) => false | _ => true) = true by decide +kernel)) _ (List.mem_of_getElem? hi)
      cases r <;> first | rfl | cases this
    · rw [show (ticks 144).clients.length = 0 by decide +kernel]; omega
  obtain ⟨pl, v, h1, rfl, h2⟩ := C111_python (j := 0) (p := 0) (n := 144) (n' := 148) (A := 10000000000) (id := .temps)
    (ext := (ticks 148).sh.trace) (P := (· = ventTemps)) (op := .getTemps) (x := x) (net := answers (ticks 148)) (u := ()) (u' := ()) ticks_timely
    (jobs_ticks ticks_timely.calls ticks_timely.run noFlush 0 1)
    (by intro id; cases id <;> decide +kernel) ticks_ticking (.head _) (by decide +kernel) (by omega)
    (by rw [show (ticks 0).sh.trace = [] from rfl, List.nil_append])
    (showsB_sound (by decide +kernel)) rfl brought (.inr ⟨_, rfl⟩) (Prod.ext hx rfl)
  exact ⟨x, hx, pl, h1, h2⟩

end Comfo.Props
