import Verif.Lemmas.Server
/-! Helper lemmas: every handler run alone is a sequence of small changes of the world. -/
namespace Comfo
open Spec

/-- One small change: time passes, a query, a refresh, an answer to a flush request. -/
inductive Micro (w : World σ) : World σ → Prop
  | time (c : Int) (a : List Nat) : w.clock ≤ c → Micro w { w with clock := c, adv := a }
  | tx (cmd : UInt8) (data : List UInt8) (expect : Bool) (evs) (r) (line : σ) :
    Transaction cmd data expect evs r → Micro w (w.after line evs)
  | refresh (id : CacheId) (line : σ) (evs q e) : Transaction (requestCode id) [] true evs (q, e) →
    Micro w ((w.after line (.refresh id w.clock :: evs)).store id (outcome id q e) w.clock)
  | answered (b : Bool) : Micro w (w.log (.answered b))

/-- Any number of small changes. -/
inductive Evolves (w : World σ) : World σ → Prop
  | refl : Evolves w w
  | step {w1 w2} : Evolves w w1 → Micro w1 w2 → Evolves w w2

theorem Evolves.one {w w' : World σ} (h : Micro w w') : Evolves w w' := .step .refl h

theorem Evolves.trans {w w1 w2 : World σ} (h1 : Evolves w w1) (h2 : Evolves w1 w2) :
    Evolves w w2 := by
  induction h2 with
  | refl => exact h1
  | step _ h ih => exact .step ih h

theorem Evolves.tick (w : World σ) : Evolves w w.tick := .one (.time _ _ (tick_mono w))

/-- Run alone, the program returns, after a sequence of small changes. -/
def Good (L : Line σ) (p : Prog α) : Prop :=
  ∀ w, ∃ a w', p.run L w = (some a, w') ∧ Evolves w w'

variable {L : Line σ}

theorem good_ret (a : α) : Good L (.ret a) := fun w => ⟨a, w, rfl, .refl⟩
theorem good_lock {l : Lock} {k : Prog α} (h : Good L k) : Good L (.lock l k) := h
theorem good_unlock {l : Lock} {k : Prog α} (h : Good L k) : Good L (.unlock l k) := h
theorem good_rlock {l : Lock} {k : Prog α} (h : Good L k) : Good L (.rlock l k) := h
theorem good_runlock {l : Lock} {k : Prog α} (h : Good L k) : Good L (.runlock l k) := h
theorem good_load {id : CacheId} {k : Entry (CVal id) → Prog α} (h : ∀ c, Good L (k c)) :
    Good L (.load id k) := fun w => h _ w
theorem good_now {k : Int → Prog α} (h : ∀ t, Good L (k t)) : Good L (.now k) := fun w => by
  obtain ⟨a, w', h1, h2⟩ := h w.tick.clock w.tick
  exact ⟨a, w', h1, (Evolves.tick w).trans h2⟩
theorem good_sleep {ns : Nat} {k : Prog α} (h : Good L k) : Good L (.sleep ns k) := fun w => by
  obtain ⟨a, w', h1, h2⟩ := h { w with clock := w.clock + (ns : Int) }
  exact ⟨a, w', h1, (Evolves.one (.time (w.clock + (ns : Int)) w.adv (by omega))).trans h2⟩
theorem good_sendFlushed {b : Bool} {k : Prog α} (h : Good L k) : Good L (.sendFlushed b k) :=
  fun w => by
    obtain ⟨a, w', h1, h2⟩ := h (w.log (.answered b))
    exact ⟨a, w', h1, (Evolves.one (.answered b)).trans h2⟩
theorem good_bind {p : Prog α} {f : α → Prog β} (hp : Good L p) (hf : ∀ a, Good L (f a)) :
    Good L (p.bind f) := fun w => by
  obtain ⟨a, w1, h1, h2⟩ := hp w
  obtain ⟨b, w2, h3, h4⟩ := hf a w1
  exact ⟨b, w2, by rw [run_bind_some h1, h3], h2.trans h4⟩

theorem good_setQuery (hL : L.NoPanic) (s : SetRequest) : Good L (setQueryP s) := by
  intro w
  match h : s.marshalBinary with
  | (bin, some e) => rw [setQueryP_err h]; exact ⟨_, w, rfl, .refl⟩
  | (bin, none) =>
    have hl : bin.length ≤ 255 := by
      cases s with
      | speed s =>
        simp only [SetRequest.marshalBinary] at h
        split at h <;> simp_all
        subst h; simp
      | comfort t =>
        simp only [SetRequest.marshalBinary] at h
        split at h <;> simp_all
        subst h; simp
      | fanProfiles q =>
        simp [SetRequest.marshalBinary] at h
        subst h; simp
    obtain ⟨line, evs, q, e, hr, ht⟩ := setQueryP_run hL h hl w
    exact ⟨e, _, hr, .one (.tx _ _ _ _ _ _ ht)⟩

theorem good_fetch (hL : L.NoPanic) (id : CacheId) : Good L id.fetch := by
  intro w
  obtain ⟨line, evs, q, e, v, e', hr, ht, -, -⟩ := fetch_run hL id w
  exact ⟨(v, e'), _, hr, .one (.tx _ _ _ _ _ _ ht)⟩

theorem good_update (hL : L.NoPanic) (id : CacheId) (force : Bool) : Good L (update id force) := by
  intro w
  rcases update_run hL id force w with ⟨-, -, h⟩ | ⟨-, line, evs, q, e, ht, h⟩
  · exact ⟨(), _, h, .tick w⟩
  · exact ⟨(), _, h, (Evolves.tick w).trans (.one (.refresh id line evs q e ht))⟩

theorem good_updateCaches (hL : L.NoPanic) (force : Bool) : Good L (updateCaches force) := by
  exact good_bind (good_update hL _ _) fun _ => good_bind (good_update hL _ _) fun _ =>
    good_bind (good_update hL _ _) fun _ => good_bind (good_update hL _ _) fun _ =>
    good_bind (good_update hL _ _) fun _ => good_update hL _ _

theorem good_flushCaches (hL : L.NoPanic) (t : Int) : Good L (flushCaches t) := by
  unfold flushCaches
  repeat' split
  all_goals
    first
    | exact good_bind (good_update hL _ _) fun _ => good_sendFlushed (good_ret _)
    | exact good_bind (good_updateCaches hL _) fun _ => good_sendFlushed (good_ret _)
    | exact good_sendFlushed (good_ret _)

theorem good_onTick (hL : L.NoPanic) (t : Tick) : Good L (onTick t) := by
  cases t <;> exact good_bind (good_update hL _ _) fun _ => good_update hL _ _

theorem good_setFanProfile (hL : L.NoPanic) (mode speed : UInt8) :
    Good L (setFanProfileP mode speed) := by
  unfold setFanProfileP
  split
  · exact good_ret _
  · split
    · exact good_ret _
    · apply good_lock
      apply good_bind (good_fetch hL .profiles)
      rintro ⟨cfp, err⟩
      cases err with
      | some e => exact good_unlock (good_ret _)
      | none => exact good_bind (good_setQuery hL _) fun _ => good_unlock (good_ret _)

theorem good_protobuf (id : CacheId) (conv : CVal id → β) : Good L (protobuf id conv) :=
  good_lock (good_load fun _ => good_unlock (good_ret _))

theorem good_setComfortTemp (hL : L.NoPanic) (cv : FloatConv) (v : UInt32) :
    Good L (setComfortTemp cv v) := by
  unfold setComfortTemp
  apply good_now; intro start
  apply good_load; intro c
  simp only
  split
  · exact good_ret _
  · split
    · apply good_lock
      apply good_bind (good_setQuery hL _)
      intro err
      cases err with
      | some e => exact good_unlock (good_ret _)
      | none =>
        exact good_bind (good_update hL _ _) fun _ => good_now fun _ => good_unlock (good_ret _)
    · exact good_now fun _ => good_ret _

theorem good_pollLoop (hL : L.NoPanic) (a b : UInt8) (n : Nat) : Good L (pollLoop a b n) := by
  induction n with
  | zero => exact good_ret _
  | succ n ih =>
    apply good_bind (good_update hL _ _); intro _
    apply good_load; intro f
    split
    · apply good_load; intro g
      split
      · exact good_ret _
      · exact good_sleep ih
    · exact good_sleep ih

theorem good_updatePoll (hL : L.NoPanic) (n : Nat) (tgt : UInt8) : Good L (updatePoll n tgt) := by
  apply good_rlock
  apply good_load; intro c
  split
  · exact good_ret _
  · exact good_runlock (good_pollLoop hL _ _ _)

theorem good_setFanSpeed (hL : L.NoPanic) (abs : UInt32) (rel : Bool) :
    Good L (setFanSpeed abs rel) := by
  apply good_now; intro start
  apply good_lock
  apply good_load; intro c
  simp only
  split
  · exact good_unlock (good_ret _)
  · split
    · apply good_bind (good_setQuery hL _)
      intro err
      cases err with
      | some e => exact good_unlock (good_ret _)
      | none =>
        apply good_bind (good_updatePoll hL _ _)
        intro err
        cases err with
        | some e => exact good_unlock (good_ret _)
        | none =>
          exact good_bind (good_update hL _ _) fun _ => good_now fun _ => good_unlock (good_ret _)
    · exact good_now fun _ => good_unlock (good_ret _)

/-- The four modes after validation. -/
theorem mode_cases {m : UInt8} (h : ¬ (m < 1 ∨ m > 4)) :
    m - 1 = 0 ∨ m - 1 = 1 ∨ m - 1 = 2 ∨ m - 1 = 3 := by
  simp only [not_or, UInt8.not_lt] at h
  obtain ⟨h1, h2⟩ := h
  have : m.toNat = 1 ∨ m.toNat = 2 ∨ m.toNat = 3 ∨ m.toNat = 4 := by
    have a := UInt8.le_iff_toNat_le.1 h1
    have b := UInt8.le_iff_toNat_le.1 h2
    simp at a b
    omega
  rcases this with h | h | h | h
  · have : m = 1 := UInt8.toNat_inj.1 h
    subst this; simp
  · have : m = 2 := UInt8.toNat_inj.1 h
    subst this; simp
  · have : m = 3 := UInt8.toNat_inj.1 h
    subst this; simp
  · have : m = 4 := UInt8.toNat_inj.1 h
    subst this; simp

theorem good_setFanProfileRpc (hL : L.NoPanic) (m t : UInt32) :
    Good L (setFanProfileRpc m t) := by
  apply good_now; intro start
  simp only
  split
  · exact good_ret _
  · rename_i hm
    split
    · exact good_ret _
    · apply good_lock
      have cont : ∀ o : UInt8, Good L (if o ≠ t.toUInt8 then
          (setFanProfileP (m.toUInt8 - 1) t.toUInt8).bind fun err =>
          match err with
          | some e => .unlock .fan <| .ret (.err (.internal (.lib e)))
          | none =>
            (update .profiles true).bind fun _ =>
            .now fun stop => .unlock .fan <| .ret (Rpc.ok
              { modified := true, originalSpeed := o.toUInt32, targetSpeed := t,
                reqTime := timeSub stop start : SpeedModified })
        else .now fun stop => .unlock .fan <| .ret (Rpc.ok
              { modified := false, originalSpeed := o.toUInt32, targetSpeed := t,
                reqTime := timeSub stop start : SpeedModified })) := by
        intro o
        split
        · apply good_bind (good_setFanProfile hL _ _)
          intro err
          cases err with
          | some e => exact good_unlock (good_ret _)
          | none =>
            exact good_bind (good_update hL _ _) fun _ =>
              good_now fun _ => good_unlock (good_ret _)
        · exact good_now fun _ => good_unlock (good_ret _)
      rcases mode_cases hm with h | h | h | h
      · simp only [h, if_true]
        rw [h] at cont
        exact good_load fun c => cont c.val.inAway
      · simp only [h]
        rw [h] at cont
        exact good_load fun c => cont c.val.inLow
      · simp only [h]
        rw [h] at cont
        exact good_load fun c => cont c.val.inMid
      · simp only [h]
        rw [h] at cont
        exact good_load fun c => cont c.val.inHigh

end Comfo
