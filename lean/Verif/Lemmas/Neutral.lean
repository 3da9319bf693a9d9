import Verif.Lemmas.Served
/-!
Helper lemmas: a ghost state to which queries, refreshes and reads of a cache return is the ghost
state in which every request ends.
-/
namespace Comfo
open Spec

/-- Actions of the handlers outside of queries, refreshes and reads of a cache. -/
def Plain : Act → Prop
  | .lock (.cache _) | .unlock (.cache _) | .rlock (.cache _) | .runlock (.cache _) | .store _ _
  | .note _ _ | .wrote _ _ | .got _ _ | .lock .pm | .unlock .pm => False
  | _ => True

structure Neutral (R : Rules γ) (g₀ : γ) : Prop where
  plain : ∀ a, Plain a → R.must g₀ a ∧ R.post g₀ a = g₀
  query : ∀ (p : Packet) (Q : γ → Packet × Option Err → Prop), (∀ q e, (e = none → p.expect = true →
    q.command = p.command + 1) → Q g₀ (q, e)) → (queryPacketP p).Ok R Q g₀
  upd : ∀ (id : CacheId) (force : Bool) (Q : γ → Unit → Prop), Q g₀ () →
    (update id force).Ok R Q g₀
  proto : ∀ {β : Type} (id : CacheId) (conv : CVal id → β) (Q : γ → Rpc β → Prop),
    (∀ r, Q g₀ r) → (protobuf id conv).Ok R Q g₀
  peek : ∀ {β : Type} (id : CacheId) (k : Entry (CVal id) → Prog β) (Q : γ → β → Prop),
    (∀ c, (k c).Ok R Q g₀) →
    (Prog.rlock (.cache id) <| .load id fun c => .runlock (.cache id) (k c)).Ok R Q g₀

namespace Neutral
variable {R : Rules γ} {g₀ : γ} (N : Neutral R g₀)
include N

theorem act1 {P : γ → Prop} (a : Act) (ha : Plain a) (h : P g₀) :
    R.must g₀ a ∧ P (R.post g₀ a) := by
  obtain ⟨h1, h2⟩ := N.plain a ha
  exact ⟨h1, by rw [h2]; exact h⟩

theorem setQuery {Q : γ → Option Err → Prop} (inp : SetRequest) (hQ : ∀ r, Q g₀ r) :
    (setQueryP inp).Ok R Q g₀ := by
  unfold setQueryP
  split
  · exact hQ _
  · exact ok_bind (N.query _ _ fun _ _ _ => hQ _)

theorem fetch {id : CacheId} {Q : γ → CVal id × Option Err → Prop}
    (hQ : ∀ r, Q g₀ r) : id.fetch.Ok R Q g₀ :=
  ok_fetch id (N.query _ _ fun _ _ h => ⟨fun he => h he rfl, fun _ _ _ _ => hQ _⟩)

theorem updates {Q : γ → Unit → Prop} (ids : List CacheId) (hQ : Q g₀ ()) :
    (Props.updates ids).Ok R Q g₀ := by
  induction ids with
  | nil => exact hQ
  | cons id ids ih => exact ok_bind (N.upd _ _ _ ih)

theorem flushCaches {Q : γ → Unit → Prop} (t : Int) (hQ : Q g₀ ()) :
    (flushCaches t).Ok R Q g₀ := by
  rw [Props.flushCaches_eq]
  split
  · exact ok_bind (N.updates _ fun _ => N.act1 _ trivial hQ)
  · exact fun _ => N.act1 _ trivial hQ

theorem onTick {Q : γ → Unit → Prop} (k : Tick) (hQ : Q g₀ ()) : (onTick k).Ok R Q g₀ := by
  cases k <;> exact ok_bind (N.upd _ _ _ (N.upd _ _ _ hQ))

theorem setComfortTemp {Q : γ → Rpc ComfortModified → Prop} {cv : FloatConv} {v : UInt32}
    (hQ : ∀ r, Q g₀ r) : (setComfortTemp cv v).Ok R Q g₀ := by
  unfold Comfo.setComfortTemp
  refine fun start _ => N.act1 _ trivial (fun (c : Entry Temps) _ => N.act1 _ trivial ?_)
  show Prog.Ok R Q (if v > 255 then _ else _) g₀
  split
  · exact hQ _
  · split
    · refine fun _ => N.act1 _ trivial (ok_bind (N.setQuery _ ?_))
      intro err
      cases err with
      | some e => exact fun _ => N.act1 _ trivial (hQ _)
      | none =>
        exact ok_bind (N.upd _ _ _ fun stop _ => N.act1 _ trivial fun _ => N.act1 _ trivial (hQ _))
    · exact fun stop _ => N.act1 _ trivial (hQ _)

theorem pollLoop {Q : γ → Option SrvErr → Prop} {a b : UInt8} {n : Nat}
    (hQ : ∀ r, Q g₀ r) : (pollLoop a b n).Ok R Q g₀ := by
  induction n with
  | zero => exact hQ _
  | succ n ih =>
    refine ok_bind (N.upd _ _ _ fun (c : Entry Fans) _ => N.act1 _ trivial ?_)
    show Prog.Ok R Q (if c.val.inPercent = a then _ else _) g₀
    split
    · refine fun (c : Entry Fans) _ => N.act1 _ trivial ?_
      show Prog.Ok R Q (if c.val.outPercent = b then _ else _) g₀
      split
      · exact hQ _
      · exact fun _ => N.act1 _ trivial ih
    · exact fun _ => N.act1 _ trivial ih

theorem updatePoll {Q : γ → Option SrvErr → Prop} {n : Nat} {tgt : UInt8}
    (h1 : 1 ≤ tgt.toNat) (h4 : tgt.toNat ≤ 4) (hQ : ∀ r, Q g₀ r) :
    (updatePoll n tgt).Ok R Q g₀ := by
  have e : Comfo.updatePoll n tgt = (Prog.rlock (.cache .profiles) <|
      .load .profiles fun (c : Entry FanProfiles) => .runlock (.cache .profiles) <|
      Comfo.pollLoop (Props.profileOf c.val tgt.toNat).1 (Props.profileOf c.val tgt.toNat).2 n) := by
    unfold Comfo.updatePoll
    congr 2
    funext (c : Entry FanProfiles)
    show (match FanProfiles.lookup c.val tgt with
      | (_, some e) => Prog.ret (some (SrvErr.lib e))
      | ((inPct, outPct), none) => _) = _
    rw [Props.lookup_ok _ h1 h4]
  rw [e]
  exact N.peek .profiles _ _ fun c => N.pollLoop hQ

theorem setFanSpeed {Q : γ → Rpc SpeedModified → Prop} {abs : UInt32} {rel : Bool}
    (hQ : ∀ r, Q g₀ r) : (setFanSpeed abs rel).Ok R Q g₀ := by
  unfold Comfo.setFanSpeed
  refine fun start _ => N.act1 _ trivial fun _ => N.act1 _ trivial fun c _ => N.act1 _ trivial ?_
  show Prog.Ok R Q _ g₀
  simp only
  match hm : modifySpeed c.val.currentMode abs rel with
  | (_, some e) => exact fun _ => N.act1 _ trivial (hQ _)
  | (tgt, none) =>
    obtain ⟨h1, h4⟩ := modifySpeed_range hm
    simp only
    split
    · refine ok_bind (N.setQuery _ ?_)
      intro err
      cases err with
      | some e => exact fun _ => N.act1 _ trivial (hQ _)
      | none =>
        refine ok_bind (N.updatePoll h1 h4 ?_)
        intro err
        cases err with
        | some e => exact fun _ => N.act1 _ trivial (hQ _)
        | none =>
          exact ok_bind (N.upd _ _ _ fun stop _ => N.act1 _ trivial fun _ => N.act1 _ trivial (hQ _))
    · exact fun stop _ => N.act1 _ trivial fun _ => N.act1 _ trivial (hQ _)

theorem setFanProfile {Q : γ → Option Err → Prop} {m s : UInt8}
    (hQ : ∀ r, Q g₀ r) : (setFanProfileP m s).Ok R Q g₀ := by
  unfold setFanProfileP
  split
  · exact hQ _
  split
  · exact hQ _
  refine fun _ => N.act1 _ trivial (ok_bind (N.fetch (id := .profiles) ?_))
  rintro ⟨v, err⟩
  cases err with
  | some e => exact fun _ => N.act1 _ trivial (hQ _)
  | none => exact ok_bind (N.setQuery _ fun e => fun _ => N.act1 _ trivial (hQ _))

theorem setFanProfileRpc {Q : γ → Rpc SpeedModified → Prop} {m t : UInt32}
    (hQ : ∀ r, Q g₀ r) : (setFanProfileRpc m t).Ok R Q g₀ := by
  unfold Comfo.setFanProfileRpc
  refine fun start _ => N.act1 _ trivial ?_
  show Prog.Ok R Q _ g₀
  simp only
  split
  · exact hQ _
  · rename_i hm
    split
    · exact hQ _
    · refine fun _ => N.act1 _ trivial ?_
      have cont : ∀ o : UInt8, (if o ≠ t.toUInt8 then
          (setFanProfileP (m.toUInt8 - 1) t.toUInt8).bind fun err =>
          match err with
          | some e => .unlock .fan <| .ret (.err (.internal (.lib e)))
          | none =>
            (update .profiles true).bind fun _ =>
            .now fun stop => .unlock .fan <| .ret (Rpc.ok
              { modified := true, originalSpeed := o.toUInt32, targetSpeed := t,
                reqTime := timeSub stop start : SpeedModified })
        else .now fun stop => .unlock .fan <| .ret (Rpc.ok
              { modified := false, originalSpeed := o.toUInt32, targetSpeed := t,
                reqTime := timeSub stop start : SpeedModified })).Ok R Q g₀ := by
        intro o
        split
        · refine ok_bind (N.setFanProfile ?_)
          intro e
          cases e with
          | some e => exact fun _ => N.act1 _ trivial (hQ _)
          | none =>
            exact ok_bind (N.upd _ _ _ fun stop _ => N.act1 _ trivial fun _ => N.act1 _ trivial (hQ _))
        · exact fun stop _ => N.act1 _ trivial fun _ => N.act1 _ trivial (hQ _)
      rcases mode_cases hm with h | h | h | h
      · simp only [h, if_true]
        rw [h] at cont
        exact fun c _ => N.act1 _ trivial (cont c.val.inAway)
      · simp only [h]
        rw [h] at cont
        exact fun c _ => N.act1 _ trivial (cont c.val.inLow)
      · simp only [h]
        rw [h] at cont
        exact fun c _ => N.act1 _ trivial (cont c.val.inMid)
      · simp only [h]
        rw [h] at cont
        exact fun c _ => N.act1 _ trivial (cont c.val.inHigh)

theorem flushCacheRpc {Q : γ → Rpc FlushResponse → Prop} {t : Int} (hQ : ∀ r, Q g₀ r) :
    (flushCacheRpc t).Ok R Q g₀ :=
  fun _ _ => N.act1 _ trivial fun _ => N.act1 _ trivial fun _ _ => N.act1 _ trivial fun _ _ =>
    N.act1 _ trivial (hQ _)

theorem call (cv : FloatConv) (c : Call) : (c.prog cv).Ok R (fun g _ => g = g₀) g₀ := by
  cases c with
  | getBoot => exact ok_map (N.proto _ _ _ fun _ => rfl)
  | getBypass => exact ok_map (N.proto _ _ _ fun _ => rfl)
  | getErrors => exact ok_map (N.proto _ _ _ fun _ => rfl)
  | getFans => exact ok_map (N.proto _ _ _ fun _ => rfl)
  | getProfiles => exact ok_map (N.proto _ _ _ fun _ => rfl)
  | getTemps => exact ok_map (N.proto _ _ _ fun _ => rfl)
  | setComfort v => exact ok_map (N.setComfortTemp fun _ => rfl)
  | setSpeed a r => exact ok_map (N.setFanSpeed fun _ => rfl)
  | setProfile m t => exact ok_map (N.setFanProfileRpc fun _ => rfl)
  | flush t => exact ok_map (N.flushCacheRpc fun _ => rfl)
  | libQuery p => exact ok_map (N.query p _ fun _ _ _ => rfl)
  | libGet id => exact ok_map (N.fetch fun _ => rfl)
  | libSetComfort v => exact ok_map (N.setQuery _ fun _ => rfl)
  | libSetSpeed v => exact ok_map (N.setQuery _ fun _ => rfl)
  | libSetProfile m s => exact ok_map (N.setFanProfile fun _ => rfl)
  | libSetProfiles q => exact ok_map (N.setQuery _ fun _ => rfl)

end Neutral
end Comfo
