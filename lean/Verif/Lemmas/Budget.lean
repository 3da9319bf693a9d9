import Verif.Lemmas.PaceHold
import Verif.Lemmas.Refresh
/-!
Helper lemmas for C107: how much the requests that change a setting do at the most.
-/
namespace Comfo.Pace
open Spec Props

/-- What the actions cost: `V` for the line, `W` for the caches, `X` for the outer lock, `δ` for the rest. -/
def price (V : Nat) (W : CacheId → Nat) (X δ : Nat) : Act → Nat
  | .lock .pm => V
  | .lock (.cache id) | .rlock (.cache id) => W id
  | .lock .fan | .lock .temp => X
  | a => lasting δ a

theorem price_kind (V : Nat) (W : CacheId → Nat) (X δ : Nat) : ∀ x y, sameKind x y → price V W X δ x = price V W X δ y := by
  intro x y h
  cases x <;> cases y <;> first | exact absurd h id | rfl | (cases h; rfl)

/-- Rules that limit the cost. The ghost state is what is left. -/
def mustC (V : Nat) (W : CacheId → Nat) (X δ g : Nat) : Act → Prop
  | .sendFlush _ | .recvFlushed _ => False
  | a => price V W X δ a ≤ g

def RC (V : Nat) (W : CacheId → Nat) (X δ : Nat) : Rules Nat where
  must := mustC V W X δ
  post g a := g - price V W X δ a

theorem price_le {V : Nat} {W : CacheId → Nat} {X δ g : Nat} {a : Act} (h : mustC V W X δ g a) : price V W X δ a ≤ g := by
  cases a <;> first | exact h | exact absurd h id

variable {V : Nat} {W : CacheId → Nat} {X δ : Nat}

theorem rc_query {Q : Nat → Packet × Option Err → Prop} {g : Nat} (p : Packet)
    (hg : V + 1000000000 + 4 * δ ≤ g)
    (hQ : ∀ g' q e, g ≤ g' + (V + 1000000000 + 4 * δ) → (e = none → p.expect = true → q.command = p.command + 1) →
      Q g' (q, e)) : (queryPacketP p).Ok (RC V W X δ) Q g := by
  have un : ∀ {x g' q e}, x + δ ≤ g' → g ≤ g' - δ + (V + 1000000000 + 4 * δ) →
      (e = none → p.expect = true → q.command = p.command + 1) →
      (Prog.unlock .pm (.ret (q, e))).Ok (RC V W X δ) Q g' :=
    fun h h' he _ => ⟨by show δ ≤ _; omega, hQ _ _ _ h' he⟩
  unfold queryPacketP
  refine fun _ => ⟨by show V ≤ _; omega, ?_⟩
  show Prog.Ok (RC V W X δ) Q _ (g - V)
  split
  · exact un (x := 0) (by omega) (by omega) (by simp)
  · rintro ⟨n, err⟩ -
    refine ⟨by show δ ≤ _; omega, ?_⟩
    show Prog.Ok (RC V W X δ) Q _ (g - V - δ)
    cases err with
    | some e => exact un (x := 0) (by omega) (by omega) (by simp)
    | none =>
      rintro ⟨q, err⟩ -
      refine ⟨by show 1000000000 + δ ≤ _; omega, ?_⟩
      show Prog.Ok (RC V W X δ) Q _ (g - V - δ - (1000000000 + δ))
      cases err with
      | some e => exact un (x := 0) (by omega) (by omega) (by simp)
      | none =>
        by_cases hc : p.expect = true ∧ q.command ≠ p.command + 1
        · simp only [if_pos hc]
          exact un (x := 0) (by omega) (by omega) (by simp)
        · have hc' : p.expect = true → q.command = p.command + 1 := by
            intro h
            by_cases h2 : q.command = p.command + 1
            · exact h2
            · exact absurd ⟨h, h2⟩ hc
          simp only [if_neg hc]
          rintro ⟨m, err⟩ -
          refine ⟨by show δ ≤ _; omega, ?_⟩
          show Prog.Ok (RC V W X δ) Q _ (g - V - δ - (1000000000 + δ) - δ)
          cases err with
          | some e => exact un (x := 0) (by omega) (by omega) (by simp)
          | none => exact un (x := 0) (by omega) (by omega) fun _ => hc'

theorem rc_setQuery {Q : Nat → Option Err → Prop} {g : Nat} (inp : SetRequest)
    (hg : V + 1000000000 + 4 * δ ≤ g) (hQ : ∀ g' r, g ≤ g' + (V + 1000000000 + 4 * δ) → Q g' r) :
    (setQueryP inp).Ok (RC V W X δ) Q g := by
  unfold setQueryP
  split
  · exact hQ _ _ (by omega)
  · exact ok_bind (rc_query _ hg fun _ _ _ h _ => hQ _ _ h)

theorem rc_fetch {id : CacheId} {Q : Nat → CVal id × Option Err → Prop} {g : Nat}
    (hg : V + 1000000000 + 4 * δ ≤ g) (hQ : ∀ g' r, g ≤ g' + (V + 1000000000 + 4 * δ) → Q g' r) :
    id.fetch.Ok (RC V W X δ) Q g :=
  ok_fetch id (rc_query _ hg fun _ _ _ hg' h => ⟨fun he => h he rfl, fun _ _ _ _ => hQ _ _ hg'⟩)

theorem rc_update {Q : Nat → Unit → Prop} {g : Nat} (id : CacheId) (force : Bool)
    (hg : W id + V + 1000000000 + 9 * δ ≤ g) (hQ : ∀ g', g ≤ g' + (W id + V + 1000000000 + 9 * δ) → Q g' ()) :
    (update id force).Ok (RC V W X δ) Q g := by
  have hu : ∀ g', δ ≤ g' → g ≤ g' - δ + (W id + V + 1000000000 + 9 * δ) →
      (Prog.unlock (.cache id) (.ret ())).Ok (RC V W X δ) Q g' := fun g' h h' _ => ⟨h, hQ _ h'⟩
  have refresh : ∀ now g', V + 1000000000 + 7 * δ ≤ g' → g ≤ g' + (W id + 2 * δ) →
      (Prog.note id now <| id.fetch.bind fun (v, err) =>
      match err with
      | none => .store id { val := v, last := now } <| .unlock (.cache id) <| .ret ()
      | some _ => .unlock (.cache id) <| .ret ()).Ok (RC V W X δ) Q g' := by
    intro now g' h h' _
    refine ⟨by show δ ≤ _; omega, ok_bind (rc_fetch (by show _ ≤ g' - δ; omega) ?_)⟩
    rintro g'' ⟨v, e⟩ h''
    have h'' : g' - δ ≤ g'' + (V + 1000000000 + 4 * δ) := h''
    cases e with
    | none =>
      refine fun _ => ⟨by show δ ≤ _; omega, hu (g'' - δ) (by omega) (by omega)⟩
    | some _ => exact hu _ (by omega) (by omega)
  unfold update
  refine fun _ => ⟨by show W id ≤ _; omega, fun now _ => ⟨by show δ ≤ g - W id; omega, ?_⟩⟩
  show Prog.Ok (RC V W X δ) Q _ (g - W id - δ)
  cases force with
  | true => exact refresh now _ (by omega) (by omega)
  | false =>
    refine fun c _ => ⟨by show δ ≤ _; omega, ?_⟩
    show Prog.Ok (RC V W X δ) Q _ (g - W id - δ - δ)
    by_cases hs : (!isStale c.last now) = true
    · simp only [hs, if_true]; exact hu _ (by omega) (by omega)
    · simp only [hs]; exact refresh now _ (by omega) (by omega)

theorem rc_setComfortTemp {cv : FloatConv} {v : UInt32} :
    (setComfortTemp cv v).Ok (RC V W X δ) (fun _ _ => True) (W .temps + 2 * V + X + 2000000000 + 17 * δ) := by
  generalize hg : W .temps + 2 * V + X + 2000000000 + 17 * δ = g
  unfold setComfortTemp
  refine fun start _ => ⟨by show δ ≤ g; omega, fun (c : Entry Temps) _ => ⟨by show δ ≤ g - δ; omega, ?_⟩⟩
  show Prog.Ok (RC V W X δ) _ (if v > 255 then _ else _) (g - δ - δ)
  split
  · trivial
  · split
    · refine fun _ => ⟨by show X ≤ _; omega, ok_bind (rc_setQuery _ (by show _ ≤ g - δ - δ - X; omega) ?_)⟩
      intro g' err h'
      have h' : g - δ - δ - X ≤ g' + (V + 1000000000 + 4 * δ) := h'
      cases err with
      | some e => exact fun _ => ⟨by show δ ≤ _; omega, trivial⟩
      | none =>
        refine ok_bind (rc_update _ _ (by omega) fun g'' h'' stop _ => ⟨by show δ ≤ _; omega, fun _ =>
          ⟨by show δ ≤ g'' - δ; omega, trivial⟩⟩)
    · exact fun stop _ => ⟨by show δ ≤ _; omega, trivial⟩

theorem rc_pollLoop {Q : Nat → Option SrvErr → Prop} {a b : UInt8} {n g : Nat}
    (hg : n * (W .fans + V + 1500000000 + 12 * δ) ≤ g)
    (hQ : ∀ g' r, g ≤ g' + n * (W .fans + V + 1500000000 + 12 * δ) → Q g' r) :
    (pollLoop a b n).Ok (RC V W X δ) Q g := by
  induction n generalizing g with
  | zero => exact hQ _ _ (by omega)
  | succ n ih =>
    rw [Nat.add_mul, Nat.one_mul] at hg
    have hQ : ∀ g' r, g ≤ g' + (n * (W .fans + V + 1500000000 + 12 * δ) + (W .fans + V + 1500000000 + 12 * δ)) → Q g' r := by
      intro g' r h; refine hQ g' r ?_; rw [Nat.add_mul, Nat.one_mul]; exact h
    generalize hn : n * (W .fans + V + 1500000000 + 12 * δ) = N at *
    refine ok_bind (rc_update _ _ (by omega) fun g' h' => fun (c : Entry Fans) _ => ⟨by show δ ≤ _; omega, ?_⟩)
    show Prog.Ok (RC V W X δ) Q (if c.val.inPercent = a then _ else _) (g' - δ)
    have more : ∀ g'', g' ≤ g'' + 2 * δ →
        (Prog.sleep 500000000 (pollLoop a b n)).Ok (RC V W X δ) Q g'' := by
      intro g'' h'' _
      refine ⟨by show 500000000 + δ ≤ _; omega, ih (by show _ ≤ g'' - (500000000 + δ); omega) ?_⟩
      intro g3 r h3
      have h3 : g'' - (500000000 + δ) ≤ g3 + N := h3
      exact hQ _ _ (by omega)
    split
    · refine fun (c : Entry Fans) _ => ⟨by show δ ≤ _; omega, ?_⟩
      show Prog.Ok (RC V W X δ) Q (if c.val.outPercent = b then _ else _) (g' - δ - δ)
      split
      · exact hQ _ _ (by omega)
      · exact more _ (by omega)
    · exact more _ (by omega)

theorem rc_updatePoll {Q : Nat → Option SrvErr → Prop} {tgt : UInt8} {g : Nat}
    (h1 : 1 ≤ tgt.toNat) (h4 : tgt.toNat ≤ 4) (hg : W .profiles + 10 * W .fans + 10 * V + 15000000000 + 122 * δ ≤ g)
    (hQ : ∀ g' r, g ≤ g' + (W .profiles + 10 * W .fans + 10 * V + 15000000000 + 122 * δ) → Q g' r) :
    (updatePoll 10 tgt).Ok (RC V W X δ) Q g := by
  have e : updatePoll 10 tgt = (Prog.rlock (.cache .profiles) <|
      .load .profiles fun (c : Entry FanProfiles) => .runlock (.cache .profiles) <|
      pollLoop (Props.profileOf c.val tgt.toNat).1 (Props.profileOf c.val tgt.toNat).2 10) := by
    unfold updatePoll
    congr 2
    funext (c : Entry FanProfiles)
    show (match FanProfiles.lookup c.val tgt with
      | (_, some e) => Prog.ret (some (SrvErr.lib e))
      | ((inPct, outPct), none) => _) = _
    rw [Props.lookup_ok _ h1 h4]
  rw [e]
  refine fun _ => ⟨by show W .profiles ≤ _; omega, fun c _ => ⟨by show δ ≤ g - W .profiles; omega, fun _ =>
    ⟨by show δ ≤ g - W .profiles - δ; omega, rc_pollLoop (by show _ ≤ g - W .profiles - δ - δ; omega) ?_⟩⟩⟩
  intro g' r h
  have h : g - W .profiles - δ - δ ≤ g' + 10 * (W .fans + V + 1500000000 + 12 * δ) := h
  exact hQ _ _ (by omega)

theorem rc_setFanSpeed {abs : UInt32} {rel : Bool} :
    (setFanSpeed abs rel).Ok (RC V W X δ) (fun _ _ => True) (2 * W .profiles + 10 * W .fans + 12 * V + X + 17000000000 + 139 * δ) := by
  generalize hg : 2 * W .profiles + 10 * W .fans + 12 * V + X + 17000000000 + 139 * δ = g
  unfold setFanSpeed
  refine fun start _ => ⟨by show δ ≤ g; omega, fun _ => ⟨by show X ≤ g - δ; omega, fun c _ =>
    ⟨by show δ ≤ g - δ - X; omega, ?_⟩⟩⟩
  show Prog.Ok (RC V W X δ) _ _ (g - δ - X - δ)
  simp only
  match hm : modifySpeed c.val.currentMode abs rel with
  | (_, some e) => exact fun _ => ⟨by show δ ≤ _; omega, trivial⟩
  | (tgt, none) =>
    obtain ⟨h1, h4⟩ := modifySpeed_range hm
    simp only
    split
    · refine ok_bind (rc_setQuery _ (by omega) ?_)
      intro g' err h'
      cases err with
      | some e => exact fun _ => ⟨by show δ ≤ _; omega, trivial⟩
      | none =>
        refine ok_bind (rc_updatePoll h1 h4 (by omega) ?_)
        intro g'' err h''
        cases err with
        | some e => exact fun _ => ⟨by show δ ≤ _; omega, trivial⟩
        | none =>
          exact ok_bind (rc_update _ _ (by omega) fun g3 h3 stop _ => ⟨by show δ ≤ _; omega, fun _ =>
            ⟨by show δ ≤ g3 - δ; omega, trivial⟩⟩)
    · exact fun stop _ => ⟨by show δ ≤ _; omega, fun _ => ⟨by show δ ≤ g - δ - X - δ - δ; omega, trivial⟩⟩

theorem rc_setFanProfile {Q : Nat → Option Err → Prop} {m s : UInt8} {g : Nat}
    (hg : 2 * V + 2000000000 + 10 * δ ≤ g) (hQ : ∀ g' r, g ≤ g' + (2 * V + 2000000000 + 10 * δ) → Q g' r) :
    (setFanProfileP m s).Ok (RC V W X δ) Q g := by
  unfold setFanProfileP
  split
  · exact hQ _ _ (by omega)
  split
  · exact hQ _ _ (by omega)
  refine fun _ => ⟨by show δ ≤ _; omega, ok_bind (rc_fetch (id := .profiles) (by show _ ≤ g - δ; omega) ?_)⟩
  rintro g' ⟨v, err⟩ h'
  have h' : g - δ ≤ g' + (V + 1000000000 + 4 * δ) := h'
  cases err with
  | some e => exact fun _ => ⟨by show δ ≤ _; omega, hQ _ _ (by show g ≤ g' - δ + _; omega)⟩
  | none => exact ok_bind (rc_setQuery _ (by omega) fun g'' e h'' => fun _ =>
      ⟨by show δ ≤ _; omega, hQ _ _ (by show g ≤ g'' - δ + _; omega)⟩)

theorem rc_setFanProfileRpc {m t : UInt32} :
    (setFanProfileRpc m t).Ok (RC V W X δ) (fun _ _ => True) (W .profiles + 3 * V + X + 3000000000 + 23 * δ) := by
  generalize hg : W .profiles + 3 * V + X + 3000000000 + 23 * δ = g
  unfold setFanProfileRpc
  refine fun start _ => ⟨by show δ ≤ g; omega, ?_⟩
  show Prog.Ok (RC V W X δ) _ _ (g - δ)
  simp only
  split
  · trivial
  · rename_i hm
    split
    · trivial
    · refine fun _ => ⟨by show X ≤ _; omega, ?_⟩
      have cont : ∀ o : UInt8, (if o ≠ t.toUInt8 then
          (setFanProfileP (m.toUInt8 - 1) t.toUInt8).bind fun err =>
          match err with
          | some e => .unlock .fan <| .ret (.err (.internal (.lib e)))
          | none =>
            (update .profiles true).bind fun _ =>
            .now fun stop => .unlock .fan <| .ret (Rpc.ok
              { modified := true, originalSpeed := o.toUInt32, targetSpeed := t,
                reqTime := timeSub stop start : SpeedModified })
        else .now fun stop => .unlock .fan <| .ret (Rpc.ok
              { modified := false, originalSpeed := o.toUInt32, targetSpeed := t,
                reqTime := timeSub stop start : SpeedModified })).Ok (RC V W X δ) (fun _ _ => True)
          (g - δ - X - δ) := by
        intro o
        split
        · refine ok_bind (rc_setFanProfile (by omega) ?_)
          intro g' e h'
          cases e with
          | some e => exact fun _ => ⟨by show δ ≤ _; omega, trivial⟩
          | none =>
            exact ok_bind (rc_update _ _ (by omega) fun g3 h3 stop _ => ⟨by show δ ≤ _; omega, fun _ =>
              ⟨by show δ ≤ g3 - δ; omega, trivial⟩⟩)
        · exact fun stop _ => ⟨by show δ ≤ _; omega, fun _ => ⟨by show δ ≤ g - δ - X - δ - δ; omega, trivial⟩⟩
      have hle : δ ≤ g - δ - X := by omega
      rcases mode_cases hm with h | h | h | h
      · simp only [h, if_true]
        rw [h] at cont
        exact fun c _ => ⟨hle, cont c.val.inAway⟩
      · simp only [h]
        rw [h] at cont
        exact fun c _ => ⟨hle, cont c.val.inLow⟩
      · simp only [h]
        rw [h] at cont
        exact fun c _ => ⟨hle, cont c.val.inMid⟩
      · simp only [h]
        rw [h] at cont
        exact fun c _ => ⟨hle, cont c.val.inHigh⟩

/-- The cost of a path. -/
theorem rc_path {Q : Nat → α → Prop} {p q : Prog α} {acts : List Act} {g : Nat}
    (hp : Path p acts q) (hok : p.Ok (RC V W X δ) Q g) :
    q.Ok (RC V W X δ) Q (g - (acts.map (price V W X δ)).sum) ∧ (acts.map (price V W X δ)).sum ≤ g := by
  induction hp with
  | nil => exact ⟨hok, Nat.zero_le _⟩
  | snoc _ hn ih =>
    obtain ⟨i1, i2⟩ := ih
    obtain ⟨h1, h2⟩ := ok_next i1 hn trivial
    have h1 := price_le h1
    rw [List.map_append, List.sum_append]
    simp only [List.map_cons, List.map_nil, List.sum_cons, List.sum_nil, Nat.add_zero]
    refine ⟨?_, by omega⟩
    have h2 : Prog.Ok (RC V W X δ) Q _ (g - _ - _) := h2
    rw [Nat.sub_sub] at h2
    exact h2

end Comfo.Pace
