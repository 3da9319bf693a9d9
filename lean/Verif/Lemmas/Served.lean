import Verif.Lemmas.Interleave
import Verif.Spec.Served
/-! Helper lemmas: the caches in all interleavings. -/
namespace Comfo
open Spec Props

/-! ## Two sets of rules at once -/

def Rules.prod (R : Rules γ) (R' : Rules δ) : Rules (γ × δ) where
  may g a := R.may g.1 a ∧ R'.may g.2 a
  must g a := R.must g.1 a ∧ R'.must g.2 a
  post g a := (R.post g.1 a, R'.post g.2 a)

theorem ok_prod {R : Rules γ} {R' : Rules δ} {Q : γ → α → Prop} {Q' : δ → α → Prop} {p : Prog α}
    {g : γ} {g' : δ} (h : p.Ok R Q g) (h' : p.Ok R' Q' g') :
    p.Ok (R.prod R') (fun g a => Q g.1 a ∧ Q' g.2 a) (g, g') := by
  induction p generalizing g g' with
  | ret a => exact ⟨h, h'⟩
  | panic => exact h
  | now k ih => exact fun t hm => ⟨⟨(h t hm.1).1, (h' t hm.2).1⟩, ih _ (h t hm.1).2 (h' t hm.2).2⟩
  | write bs k ih => exact fun t hm => ⟨⟨(h t hm.1).1, (h' t hm.2).1⟩, ih _ (h t hm.1).2 (h' t hm.2).2⟩
  | read bs k ih => exact fun t hm => ⟨⟨(h t hm.1).1, (h' t hm.2).1⟩, ih _ (h t hm.1).2 (h' t hm.2).2⟩
  | load bs k ih => exact fun t hm => ⟨⟨(h t hm.1).1, (h' t hm.2).1⟩, ih _ (h t hm.1).2 (h' t hm.2).2⟩
  | recvFlushed k ih => exact fun t hm => ⟨⟨(h t hm.1).1, (h' t hm.2).1⟩, ih _ (h t hm.1).2 (h' t hm.2).2⟩
  | _ => rename_i ih; exact fun hm => ⟨⟨(h hm.1).1, (h' hm.2).1⟩, ih (h hm.1).2 (h' hm.2).2⟩

/-! ## A refresh that has succeeded is stored before anybody can look -/

/-- Ghost state: for each cache, the result not stored yet, and how far the refresh is. -/
def G3 := (id : CacheId) → Option (CVal id × Int) × Cur

def G3.quiet : G3 := fun _ => (none, .idle)

def must3 (g : G3) : Act → Prop
  | .unlock (.cache id) => g id = (none, .idle)
  | .store id e => (g id).1 = some (e.val, e.last)
  | .load id _ => (g id).1 = none
  | _ => True

def post3 (g : G3) (a : Act) : G3 :=
  match a with
  | .wrote bs r => fun id => scanEv id (g id) (.wrote bs r)
  | .got e r => fun id => scanEv id (g id) (.got e r)
  | .note i t => fun id => scanEv id (g id) (.refresh i t)
  | .store i _ => fun id => if id = i then (none, (g id).2) else g id
  | _ => g

def R3 : Rules G3 where
  must := must3
  post := post3

theorem r3_query {Q : G3 → Packet × Option Err → Prop} {g : G3} (p : Packet)
    (hp : p.data.length ≤ 255)
    (hQ : ∀ evs r, Transaction p.command p.data p.expect evs r →
      Q (fun id => evs.foldl (scanEv id) (g id)) r) :
    (queryPacketP p).Ok R3 Q g := by
  unfold queryPacketP
  rw [marshal_ok p hp]
  simp only [frame_eq]
  refine fun _ => ⟨trivial, ?_⟩
  rintro ⟨n, err⟩ -
  refine ⟨trivial, ?_⟩
  cases err with
  | some e => exact fun _ => ⟨trivial, hQ _ _ (.writeFailed n e)⟩
  | none =>
    rintro ⟨q, err⟩ -
    refine ⟨trivial, ?_⟩
    cases err with
    | some e => exact fun _ => ⟨trivial, hQ _ _ (.readFailed n q e)⟩
    | none =>
      by_cases hc : p.expect = true ∧ q.command ≠ p.command + 1
      · simp only [if_pos hc]
        exact fun _ => ⟨trivial, hQ _ _ (.wrongReply n q hc.1 hc.2)⟩
      · have hc' : p.expect = true → q.command = p.command + 1 := by
          intro h
          by_cases h2 : q.command = p.command + 1
          · exact h2
          · exact absurd ⟨h, h2⟩ hc
        simp only [if_neg hc]
        rintro ⟨m, err⟩ -
        refine ⟨trivial, ?_⟩
        cases err with
        | some e => exact fun _ => ⟨trivial, hQ _ _ (.ackFailed n q m e hc')⟩
        | none =>
          refine fun _ => ⟨trivial, hQ [.wrote (frame p.command p.data) (n, none),
            .got p.expect (q, none), .wrote ack (m, none)] _ ?_⟩
          by_cases hm : m = 2
          · subst hm; exact .complete n q hc'
          · have : m ≠ pktAck.length := hm
            rw [if_pos this]
            exact .ackShort n q m hc' hm

theorem quiet_tx {cmd : UInt8} {data : List UInt8} {expect : Bool} {evs : List IoEv} {r}
    (h : Transaction cmd data expect evs r) :
    (fun id => evs.foldl (scanEv id) (G3.quiet id)) = G3.quiet := by
  funext id
  exact scan_idle_tx h id none

/-- A query outside of a refresh. -/
theorem r3_quiet_query {Q : G3 → Packet × Option Err → Prop} (p : Packet)
    (hQ : ∀ r, Q G3.quiet r) : (queryPacketP p).Ok R3 Q G3.quiet := by
  by_cases hp : p.data.length ≤ 255
  · refine r3_query p hp fun evs r h => ?_
    rw [quiet_tx h]; exact hQ r
  · unfold queryPacketP
    have : ∃ b e, marshalPacket p = (b, some e) := by
      unfold marshalPacket
      simp only [gt_iff_lt, if_pos (Nat.lt_of_not_le hp)]
      exact ⟨_, _, rfl⟩
    obtain ⟨b, e, hm⟩ := this
    rw [hm]
    exact fun _ => ⟨trivial, fun _ => ⟨trivial, hQ _⟩⟩

theorem r3_setQuery {Q : G3 → Option Err → Prop} (inp : SetRequest) (hQ : ∀ r, Q G3.quiet r) :
    (setQueryP inp).Ok R3 Q G3.quiet := by
  unfold setQueryP
  split
  · exact hQ _
  · exact ok_bind (r3_quiet_query _ fun r => hQ _)

theorem r3_fetch_gen {g : G3} {id : CacheId} {Q : G3 → CVal id × Option Err → Prop}
    (hQ : ∀ evs q e v e', Transaction (requestCode id) [] true evs (q, e) →
      (e' = none ↔ (outcome id q e).isSome) → (e' = none → outcome id q e = some v) →
      Q (fun i => evs.foldl (scanEv i) (g i)) (v, e')) :
    id.fetch.Ok R3 Q g := by
  refine ok_fetch id (r3_query _ (by simp) ?_)
  rintro evs ⟨q, e⟩ h2
  refine ⟨?_, fun v e' h3 h4 => hQ evs q e v e' h2 ?_ ?_⟩
  · rintro he; simp only at he; subst he; exact transaction_code h2
  · rw [h3]; cases e <;> simp [outcome]
  · intro he'
    obtain ⟨he, -⟩ := h3.1 he'
    simp only at he
    subst he
    exact h4 he'

theorem r3_fetch {id : CacheId} {Q : G3 → CVal id × Option Err → Prop}
    (hQ : ∀ r, Q G3.quiet r) : id.fetch.Ok R3 Q G3.quiet := by
  refine r3_fetch_gen fun evs q e v e' h _ _ => ?_
  rw [quiet_tx h]; exact hQ _

/-- The end of `update`. -/
theorem r3_finish {Q : G3 → Unit → Prop} {id : CacheId} {now : Int} {g : G3} {v : CVal id}
    {e : Option Err} {x : Option (CVal id)} (ho : ∀ i, i ≠ id → g i = (none, .idle))
    (hs : g id = (match x with | some v => some (v, now) | none => none, .idle))
    (h1 : e = none ↔ x.isSome) (h2 : e = none → x = some v) (hQ : Q G3.quiet ()) :
    (match e with
      | none => Prog.store id { val := v, last := now } <| .unlock (.cache id) <| .ret ()
      | some _ => .unlock (.cache id) <| .ret ()).Ok R3 Q g := by
  cases e with
  | none =>
    have hv := h2 rfl
    subst hv
    have hq : post3 g (.store id { val := v, last := now }) = G3.quiet := by
      funext i
      show (if i = id then (none, (g i).2) else g i) = (none, .idle)
      by_cases hi : i = id
      · subst hi; rw [if_pos rfl, hs]
      · rw [if_neg hi, ho i hi]
    refine fun _ => ⟨?_, ?_⟩
    · show (g id).1 = _
      rw [hs]
    · show Prog.Ok R3 Q _ (post3 g (.store id { val := v, last := now }))
      rw [hq]
      exact fun _ => ⟨rfl, hQ⟩
  | some er =>
    have hn : x = none := by
      cases x with
      | none => rfl
      | some v => simp at h1
    subst hn
    have hq : g = G3.quiet := by
      funext i
      by_cases hi : i = id
      · subst hi; exact hs
      · exact ho i hi
    subst hq
    exact fun _ => ⟨rfl, hQ⟩

theorem r3_update {Q : G3 → Unit → Prop} (id : CacheId) (force : Bool) (hQ : Q G3.quiet ()) :
    (update id force).Ok R3 Q G3.quiet := by
  have refresh : ∀ now, (Prog.note id now <| id.fetch.bind fun (v, err) =>
      match err with
      | none => .store id { val := v, last := now } <| .unlock (.cache id) <| .ret ()
      | some _ => .unlock (.cache id) <| .ret ()).Ok R3 Q G3.quiet := by
    intro now _
    refine ⟨trivial, ok_bind (r3_fetch_gen ?_)⟩
    intro evs q e v e' htr h1 h2
    have hs : ∀ i, evs.foldl (scanEv i) (R3.post G3.quiet (.note id now) i) =
        (IoEv.refresh id now :: evs).foldl (scanEv i) (G3.quiet i) := fun _ => rfl
    refine r3_finish (x := outcome id q e) ?_ ?_ h1 h2 hQ
    · intro i hi
      rw [hs, scan_other htr (Ne.symm hi)]; rfl
    · rw [hs, Props.scan_same htr]; rfl
  unfold update
  refine fun _ => ⟨trivial, fun now _ => ⟨trivial, ?_⟩⟩
  cases force with
  | true => exact refresh now
  | false =>
    refine fun c _ => ⟨rfl, ?_⟩
    by_cases hs : (!isStale c.last now) = true
    · simp only [hs, if_true]; exact fun _ => ⟨rfl, hQ⟩
    · simp only [hs]; exact refresh now

theorem r3_protobuf {β : Type} {id : CacheId} {conv : CVal id → β} {Q : G3 → Rpc β → Prop}
    (hQ : ∀ r, Q G3.quiet r) : (protobuf id conv).Ok R3 Q G3.quiet :=
  fun _ => ⟨trivial, fun _ _ => ⟨rfl, fun _ => ⟨rfl, hQ _⟩⟩⟩

theorem r3_updates {Q : G3 → Unit → Prop} (ids : List CacheId) (hQ : Q G3.quiet ()) :
    (Props.updates ids).Ok R3 Q G3.quiet := by
  induction ids with
  | nil => exact hQ
  | cons id ids ih => exact ok_bind (r3_update _ _ ih)

theorem r3_flushCaches {Q : G3 → Unit → Prop} (t : Int) (hQ : Q G3.quiet ()) :
    (flushCaches t).Ok R3 Q G3.quiet := by
  rw [Props.flushCaches_eq]
  split
  · exact ok_bind (r3_updates _ fun _ => ⟨trivial, hQ⟩)
  · exact fun _ => ⟨trivial, hQ⟩

theorem r3_onTick {Q : G3 → Unit → Prop} (k : Tick) (hQ : Q G3.quiet ()) :
    (onTick k).Ok R3 Q G3.quiet := by
  cases k <;> exact ok_bind (r3_update _ _ (r3_update _ _ hQ))

theorem r3_setComfortTemp {Q : G3 → Rpc ComfortModified → Prop} {cv : FloatConv} {v : UInt32}
    (hQ : ∀ r, Q G3.quiet r) : (setComfortTemp cv v).Ok R3 Q G3.quiet := by
  unfold setComfortTemp
  refine fun start _ => ⟨trivial, fun (c : Entry Temps) _ => ⟨rfl, ?_⟩⟩
  show Prog.Ok R3 Q (if v > 255 then _ else _) G3.quiet
  split
  · exact hQ _
  · split
    · refine fun _ => ⟨trivial, ok_bind (r3_setQuery _ ?_)⟩
      intro err
      cases err with
      | some e => exact fun _ => ⟨trivial, hQ _⟩
      | none => exact ok_bind (r3_update _ _ fun stop _ => ⟨trivial, fun _ => ⟨trivial, hQ _⟩⟩)
    · exact fun stop _ => ⟨trivial, hQ _⟩

theorem r3_pollLoop {Q : G3 → Option SrvErr → Prop} {a b : UInt8} {n : Nat}
    (hQ : ∀ r, Q G3.quiet r) : (pollLoop a b n).Ok R3 Q G3.quiet := by
  induction n with
  | zero => exact hQ _
  | succ n ih =>
    refine ok_bind (r3_update _ _ fun (c : Entry Fans) _ => ⟨rfl, ?_⟩)
    show Prog.Ok R3 Q (if c.val.inPercent = a then _ else _) G3.quiet
    split
    · refine fun (c : Entry Fans) _ => ⟨rfl, ?_⟩
      show Prog.Ok R3 Q (if c.val.outPercent = b then _ else _) G3.quiet
      split
      · exact hQ _
      · exact fun _ => ⟨trivial, ih⟩
    · exact fun _ => ⟨trivial, ih⟩

theorem r3_updatePoll {Q : G3 → Option SrvErr → Prop} {n : Nat} {tgt : UInt8}
    (hQ : ∀ r, Q G3.quiet r) : (updatePoll n tgt).Ok R3 Q G3.quiet := by
  refine fun _ => ⟨trivial, fun (c : Entry FanProfiles) _ => ⟨rfl, ?_⟩⟩
  show Prog.Ok R3 Q (match FanProfiles.lookup c.val tgt with
    | (_, some e) => _
    | ((inPct, outPct), none) => _) G3.quiet
  split
  · exact hQ _
  · exact fun _ => ⟨trivial, r3_pollLoop hQ⟩

theorem r3_setFanSpeed {Q : G3 → Rpc SpeedModified → Prop} {abs : UInt32} {rel : Bool}
    (hQ : ∀ r, Q G3.quiet r) : (setFanSpeed abs rel).Ok R3 Q G3.quiet := by
  unfold setFanSpeed
  refine fun start _ => ⟨trivial, fun _ => ⟨trivial, fun c _ => ⟨rfl, ?_⟩⟩⟩
  show Prog.Ok R3 Q _ G3.quiet
  simp only
  split
  · exact fun _ => ⟨trivial, hQ _⟩
  · split
    · refine ok_bind (r3_setQuery _ ?_)
      intro err
      cases err with
      | some e => exact fun _ => ⟨trivial, hQ _⟩
      | none =>
        refine ok_bind (r3_updatePoll ?_)
        intro err
        cases err with
        | some e => exact fun _ => ⟨trivial, hQ _⟩
        | none => exact ok_bind (r3_update _ _ fun stop _ => ⟨trivial, fun _ => ⟨trivial, hQ _⟩⟩)
    · exact fun stop _ => ⟨trivial, fun _ => ⟨trivial, hQ _⟩⟩

theorem r3_setFanProfile {Q : G3 → Option Err → Prop} {m s : UInt8}
    (hQ : ∀ r, Q G3.quiet r) : (setFanProfileP m s).Ok R3 Q G3.quiet := by
  unfold setFanProfileP
  split
  · exact hQ _
  split
  · exact hQ _
  refine fun _ => ⟨trivial, ok_bind (r3_fetch (id := .profiles) ?_)⟩
  rintro ⟨v, err⟩
  cases err with
  | some e => exact fun _ => ⟨trivial, hQ _⟩
  | none => exact ok_bind (r3_setQuery _ fun e => fun _ => ⟨trivial, hQ _⟩)

theorem r3_setFanProfileRpc {Q : G3 → Rpc SpeedModified → Prop} {m t : UInt32}
    (hQ : ∀ r, Q G3.quiet r) : (setFanProfileRpc m t).Ok R3 Q G3.quiet := by
  unfold setFanProfileRpc
  refine fun start _ => ⟨trivial, ?_⟩
  show Prog.Ok R3 Q _ G3.quiet
  simp only
  split
  · exact hQ _
  · rename_i hm
    split
    · exact hQ _
    · refine fun _ => ⟨trivial, ?_⟩
      have cont : ∀ o : UInt8, (if o ≠ t.toUInt8 then
          (setFanProfileP (m.toUInt8 - 1) t.toUInt8).bind fun err =>
          match err with
          | some e => .unlock .fan <| .ret (.err (.internal (.lib e)))
          | none =>
            (update .profiles true).bind fun _ =>
            .now fun stop => .unlock .fan <| .ret (Rpc.ok
              { modified := true, originalSpeed := o.toUInt32, targetSpeed := t,
                reqTime := timeSub stop start : SpeedModified })
        else .now fun stop => .unlock .fan <| .ret (Rpc.ok
              { modified := false, originalSpeed := o.toUInt32, targetSpeed := t,
                reqTime := timeSub stop start : SpeedModified })).Ok R3 Q G3.quiet := by
        intro o
        split
        · refine ok_bind (r3_setFanProfile ?_)
          intro e
          cases e with
          | some e => exact fun _ => ⟨trivial, hQ _⟩
          | none => exact ok_bind (r3_update _ _ fun stop _ => ⟨trivial, fun _ => ⟨trivial, hQ _⟩⟩)
        · exact fun stop _ => ⟨trivial, fun _ => ⟨trivial, hQ _⟩⟩
      rcases mode_cases hm with h | h | h | h
      · simp only [h, if_true]
        rw [h] at cont
        exact fun c _ => ⟨rfl, cont c.val.inAway⟩
      · simp only [h]
        rw [h] at cont
        exact fun c _ => ⟨rfl, cont c.val.inLow⟩
      · simp only [h]
        rw [h] at cont
        exact fun c _ => ⟨rfl, cont c.val.inMid⟩
      · simp only [h]
        rw [h] at cont
        exact fun c _ => ⟨rfl, cont c.val.inHigh⟩

theorem r3_flushCacheRpc {Q : G3 → Rpc FlushResponse → Prop} {t : Int} (hQ : ∀ r, Q G3.quiet r) :
    (flushCacheRpc t).Ok R3 Q G3.quiet :=
  fun _ _ => ⟨trivial, fun _ => ⟨trivial, fun _ _ => ⟨trivial, fun _ _ => ⟨trivial, hQ _⟩⟩⟩⟩

theorem r3_call (cv : FloatConv) (c : Call) :
    (c.prog cv).Ok R3 (fun g _ => g = G3.quiet) G3.quiet := by
  cases c with
  | getBoot => exact ok_map (r3_protobuf fun _ => rfl)
  | getBypass => exact ok_map (r3_protobuf fun _ => rfl)
  | getErrors => exact ok_map (r3_protobuf fun _ => rfl)
  | getFans => exact ok_map (r3_protobuf fun _ => rfl)
  | getProfiles => exact ok_map (r3_protobuf fun _ => rfl)
  | getTemps => exact ok_map (r3_protobuf fun _ => rfl)
  | setComfort v => exact ok_map (r3_setComfortTemp fun _ => rfl)
  | setSpeed a r => exact ok_map (r3_setFanSpeed fun _ => rfl)
  | setProfile m t => exact ok_map (r3_setFanProfileRpc fun _ => rfl)
  | flush t => exact ok_map (r3_flushCacheRpc fun _ => rfl)
  | libQuery p => exact ok_map (r3_quiet_query p fun _ => rfl)
  | libGet id => exact ok_map (r3_fetch fun _ => rfl)
  | libSetComfort v => exact ok_map (r3_setQuery _ fun _ => rfl)
  | libSetSpeed v => exact ok_map (r3_setQuery _ fun _ => rfl)
  | libSetProfile m s => exact ok_map (r3_setFanProfile fun _ => rfl)
  | libSetProfiles q => exact ok_map (r3_setQuery _ fun _ => rfl)

/-! ## The invariant -/

theorem scanEv_snd (id : CacheId) (x y : Option (CVal id × Int)) (c : Cur) (ev : IoEv) :
    (scanEv id (x, c) ev).2 = (scanEv id (y, c) ev).2 := by
  rcases ev with ⟨bs, n, _ | e⟩ | ⟨_ | _, q, _ | e⟩ | ⟨i, t⟩ | b <;> cases c <;>
    simp only [scanEv]
  cases decode id _ <;> rfl

theorem scanEv_fst (id : CacheId) (c : Cur) (ev : IoEv) :
    (∀ x, (scanEv id (x, c) ev).1 = x) ∨ ∃ v, ∀ x, (scanEv id (x, c) ev).1 = some v := by
  rcases ev with ⟨bs, n, _ | e⟩ | ⟨_ | _, q, _ | e⟩ | ⟨i, t⟩ | b <;> cases c <;>
    try exact .inl fun _ => rfl
  rename_i pl t
  simp only [scanEv]
  cases decode id pl with
  | none => exact .inl fun _ => rfl
  | some v =>
    by_cases h : bs = ack ∧ n = 2
    · exact .inr ⟨(v, t), fun x => if_pos h⟩
    · exact .inl fun x => if_neg h

/-- Without a refresh under way nothing comes of an event, unless it begins one. -/
theorem scanEv_idle (id : CacheId) (x : Option (CVal id × Int)) (ev : IoEv) :
    scanEv id (x, .idle) ev = (x, .idle) ∨ ∃ t, ev = .refresh id t := by
  rcases ev with ⟨bs, n, _ | e⟩ | ⟨_ | _, q, _ | e⟩ | ⟨i, t⟩ | b <;>
    try exact .inl rfl
  by_cases h : i = id
  · subst h; exact .inr ⟨t, rfl⟩
  · exact .inl (by simp [scanEv, h])

theorem scanAll_snoc (id : CacheId) (tr : List (Tid × Act)) (x : Tid × Act) :
    scanAll id (tr ++ [x]) = scanAct id (scanAll id tr) x := by
  simp [scanAll]

/-- How `post3` follows the log. -/
theorem post3_cases (g : G3) (a : Act) :
    (∃ ev, evOf a = some ev ∧ ∀ id, post3 g a id = scanEv id (g id) ev) ∨
    (∃ i e, a = .store i e ∧ evOf a = none ∧
      (∀ id, id ≠ i → post3 g a id = g id) ∧ post3 g a i = (none, (g i).2)) ∨
    ((∀ i e, a ≠ .store i e) ∧ evOf a = none ∧ post3 g a = g) := by
  cases a with
  | store i e =>
    exact .inr (.inl ⟨i, e, rfl, rfl, fun id h => if_neg h, if_pos rfl⟩)
  | wrote bs r => exact .inl ⟨_, rfl, fun _ => rfl⟩
  | got e r => exact .inl ⟨_, rfl, fun _ => rfl⟩
  | note i t => exact .inl ⟨_, rfl, fun _ => rfl⟩
  | _ => exact .inr (.inr ⟨by simp, rfl, rfl⟩)

theorem held_keep {g : G1} {a : Act} {l : Lock} {b : Bool} (h : (l, b) ∈ g.held)
    (ha : a ≠ .unlock l) (hr : a ≠ .runlock l) : (l, b) ∈ (post1 g a).held := by
  cases a with
  | lock l' => exact List.mem_cons_of_mem _ h
  | rlock l' => exact List.mem_cons_of_mem _ h
  | unlock l' =>
    have e : (post1 g (.unlock l')).held = g.held.filter (· ≠ (l', true)) := by
      simp only [post1]; split <;> rfl
    rw [e]
    refine List.mem_filter.mpr ⟨h, ?_⟩
    have : l ≠ l' := fun e => ha (by rw [e])
    simp [this]
  | runlock l' =>
    refine List.mem_filter.mpr ⟨h, ?_⟩
    have : l ≠ l' := fun e => hr (by rw [e])
    simp [this]
  | _ => exact h

theorem held_keep_excl {g : G1} {a : Act} {l : Lock} (h : (l, true) ∈ g.held)
    (ha : a ≠ .unlock l) : (l, true) ∈ (post1 g a).held := by
  by_cases hr : a = .runlock l
  · subst hr; exact List.mem_filter.mpr ⟨h, by simp⟩
  · exact held_keep h ha hr

/-- Where the caches stand. -/
structure Glob3 (start : (id : CacheId) → Entry (CVal id)) (g : Tid → G1 × G3)
    (sh : Shared σ) : Prop where
  base : Glob1 (fun t => (g t).1) sh
  cur : ∀ id t, (scanAll id sh.trace).2 t = ((g t).2 id).2
  own : ∀ id t, (g t).2 id ≠ (none, .idle) → (.cache id, true) ∈ (g t).1.held
  pend : ∀ id t v, ((g t).2 id).1 = some v → (scanAll id sh.trace).1 = some v
  calm : ∀ id, (∀ t, ((g t).2 id).1 = none) →
    sh.world.get id = current id (start id) sh.trace
  inside : ∀ t l, inside t l sh.trace = true → ∃ b, (l, b) ∈ (g t).1.held
  loads : ∀ pre t id c post, sh.trace = pre ++ (t, .load id c) :: post →
    Spec.inside t (.cache id) pre = true → c = current id (start id) pre
  stores : ∀ pre t id e post, sh.trace = pre ++ (t, .store id e) :: post →
    (scanAll id pre).1 = some (e.val, e.last)
  locks : ∀ pre t id post, sh.trace = pre ++ (t, .lock (.cache id)) :: post →
    ∀ u, (scanAll id pre).2 u = .idle

theorem fst_upd (g : Tid → G1 × G3) (t : Tid) (x : G1 × G3) :
    (fun u => (upd g t x u).1) = upd (fun u => (g u).1) t x.1 := by
  funext u
  by_cases h : u = t
  · subst h; rw [upd_same, upd_same]
  · rw [upd_other _ _ h, upd_other _ _ h]

theorem inside_snoc (t u : Tid) (l : Lock) (tr : List (Tid × Act)) (a : Act) :
    inside t l (tr ++ [(u, a)]) = if u = t then
      match a with
      | .lock l' | .rlock l' => if l' = l then true else inside t l tr
      | .unlock l' | .runlock l' => if l' = l then false else inside t l tr
      | _ => inside t l tr
      else inside t l tr := by
  unfold inside
  rw [List.foldl_append]
  cases a <;> rfl

/-- The last entry or an earlier one. -/
theorem split_snoc {α : Type} {tr pre post : List α} {x y : α} (h : tr ++ [x] = pre ++ y :: post) :
    (pre = tr ∧ x = y ∧ post = []) ∨ ∃ post', tr = pre ++ y :: post' := by
  rcases List.eq_nil_or_concat post with rfl | ⟨ps, z, rfl⟩
  · have := List.append_inj' h rfl
    exact .inl ⟨this.1.symm, by simpa using this.2, rfl⟩
  · refine .inr ⟨ps, ?_⟩
    have : tr ++ [x] = (pre ++ y :: ps) ++ [z] := by rw [h]; simp
    exact (List.append_inj' this rfl).1

theorem acts_get {L : Line σ} {t : Tid} {a : Act} {sh sh' : Shared σ} (h : Acts L t a sh sh')
    (ha : ∀ i e, a ≠ .store i e) (id : CacheId) : sh'.world.get id = sh.world.get id := by
  cases h <;> try rfl
  exact absurd rfl (ha _ _)

theorem glob3_act {start : (id : CacheId) → Entry (CVal id)} {L : Line σ} {g : Tid → G1 × G3}
    {t : Tid} {a : Act} {sh sh' : Shared σ}
    (h : Glob3 start g sh) (ha : Acts L t a sh sh') (hm : (R1.prod R3).must (g t) a) :
    Glob3 start (upd g t ((R1.prod R3).post (g t) a)) sh' := by
  obtain ⟨hm1, hm3⟩ := hm
  have htr := acts_trace ha
  have at1 : (upd g t ((R1.prod R3).post (g t) a) t).1 = post1 (g t).1 a := by rw [upd_same]; rfl
  have at3 : (upd g t ((R1.prod R3).post (g t) a) t).2 = post3 (g t).2 a := by rw [upd_same]; rfl
  have off : ∀ u, u ≠ t → upd g t ((R1.prod R3).post (g t) a) u = g u :=
    fun u hu => upd_other _ _ hu
  generalize hg' : upd g t ((R1.prod R3).post (g t) a) = g' at *
  have hbase : Glob1 (fun u => (g' u).1) sh' := by
    rw [← hg', fst_upd]
    exact glob1_act (g := fun u => (g u).1) h.base ha hm1
  -- who else has a refresh under way
  have alone : ∀ id u, u ≠ t → (g u).2 id ≠ (none, .idle) → ∀ b, (Lock.cache id, b) ∉ (g t).1.held := by
    intro id u hu hq b hb
    have h1 := (h.base.held_iff u _ _).1 (h.own id u hq)
    have h2 := (h.base.held_iff t _ _).1 hb
    have := h.base.excl _ h1 _ h2 rfl rfl
    simp only [Held.mk.injEq] at this
    exact hu this.2.2
  have scanT : ∀ id, scanAll id sh'.trace = scanAct id (scanAll id sh.trace) (t, a) := by
    intro id; rw [htr, scanAll_snoc]
  refine { base := hbase, cur := ?_, own := ?_, pend := ?_, calm := ?_, inside := ?_, loads := ?_,
           stores := ?_, locks := ?_ }
  · intro id u
    rw [scanT]
    rcases post3_cases (g t).2 a with ⟨ev, e1, e2⟩ | ⟨i, e, -, e1, e2, e3⟩ | ⟨-, e1, e2⟩
    · simp only [scanAct, e1]
      by_cases hu : u = t
      · subst hu
        rw [if_pos rfl, at3, e2, h.cur]
        exact scanEv_snd id _ ((g u).2 id).1 _ ev
      · rw [if_neg hu, off u hu]; exact h.cur id u
    · simp only [scanAct, e1]
      by_cases hu : u = t
      · subst hu
        rw [at3]
        by_cases hi : id = i
        · subst hi; rw [e3]; exact h.cur _ u
        · rw [e2 id hi]; exact h.cur id u
      · rw [off u hu]; exact h.cur id u
    · simp only [scanAct, e1]
      by_cases hu : u = t
      · subst hu; rw [at3, e2]; exact h.cur id u
      · rw [off u hu]; exact h.cur id u
  · intro id u hq
    by_cases hu : u = t
    · subst hu
      rw [at1]
      rw [at3] at hq
      by_cases hq0 : (g u).2 id = (none, .idle)
      · -- the refresh begins here
        have hn : ∃ ts, a = .note id ts := by
          rcases post3_cases (g u).2 a with ⟨ev, e1, e2⟩ | ⟨i, e, -, e1, e2, e3⟩ | ⟨-, e1, e2⟩
          · rw [e2, hq0] at hq
            rcases scanEv_idle id none ev with h1 | ⟨ts, h1⟩
            · exact absurd h1 hq
            · subst h1
              cases a <;> simp [evOf] at e1
              obtain ⟨rfl, rfl⟩ := e1
              exact ⟨_, rfl⟩
          · by_cases hi : id = i
            · subst hi; rw [e3, hq0] at hq; exact absurd rfl hq
            · rw [e2 id hi] at hq; exact absurd hq0 hq
          · rw [e2] at hq; exact absurd hq0 hq
        obtain ⟨ts, rfl⟩ := hn
        exact held_keep_excl (hm1.2.1) (by simp)
      · refine held_keep_excl (h.own id u hq0) ?_
        rintro rfl
        exact hq0 hm3
    · rw [off u hu] at hq ⊢; exact h.own id u hq
  · intro id u v hv
    rw [scanT]
    by_cases hu : u = t
    · subst hu
      rw [at3] at hv
      rcases post3_cases (g u).2 a with ⟨ev, e1, e2⟩ | ⟨i, e, -, e1, e2, e3⟩ | ⟨-, e1, e2⟩
      · simp only [scanAct, e1]
        rw [e2] at hv
        rw [h.cur]
        rcases scanEv_fst id ((g u).2 id).2 ev with h1 | ⟨w, h1⟩
        · have h2 := h1 ((g u).2 id).1
          rw [show (((g u).2 id).1, ((g u).2 id).2) = (g u).2 id from rfl, hv] at h2
          rw [h1]; exact h.pend id u v h2.symm
        · have h2 := h1 ((g u).2 id).1
          rw [show (((g u).2 id).1, ((g u).2 id).2) = (g u).2 id from rfl, hv] at h2
          rw [h1]; exact h2.symm
      · simp only [scanAct, e1]
        by_cases hi : id = i
        · subst hi; rw [e3] at hv; cases hv
        · rw [e2 id hi] at hv; exact h.pend id u v hv
      · simp only [scanAct, e1]
        rw [e2] at hv; exact h.pend id u v hv
    · rw [off u hu] at hv
      have hq : (g u).2 id ≠ (none, .idle) := by intro e; rw [e] at hv; cases hv
      have hbest := h.pend id u v hv
      have hidle : (g t).2 id = (none, .idle) :=
        Classical.byContradiction fun hne => alone id u hu hq true (h.own id t hne)
      match e1 : evOf a with
      | none => simp only [scanAct, e1]; exact hbest
      | some ev =>
        simp only [scanAct, e1]
        rw [h.cur, hidle]
        rcases scanEv_idle id (scanAll id sh.trace).1 ev with h1 | ⟨ts, rfl⟩
        · rw [h1]; exact hbest
        · simp only [scanEv]; exact hbest
  · intro id hall
    have hoff : ∀ u, u ≠ t → ((g u).2 id).1 = none := by
      intro u hu; have := hall u; rwa [off u hu] at this
    have hat := hall t
    rw [at3] at hat
    rcases post3_cases (g t).2 a with ⟨ev, e1, e2⟩ | ⟨i, e, rfl, e1, e2, e3⟩ | ⟨hns, e1, e2⟩
    · have hns : ∀ i e, a ≠ .store i e := by rintro i e rfl; cases e1
      rw [acts_get ha hns]
      rw [e2] at hat
      have hsame : (scanAll id sh'.trace).1 = (scanAll id sh.trace).1 ∧ ((g t).2 id).1 = none := by
        rw [scanT]
        simp only [scanAct, e1]
        rw [h.cur]
        rcases scanEv_fst id ((g t).2 id).2 ev with h1 | ⟨w, h1⟩
        · have h2 := h1 ((g t).2 id).1
          rw [show (((g t).2 id).1, ((g t).2 id).2) = (g t).2 id from rfl, hat] at h2
          exact ⟨h1 _, h2.symm⟩
        · have h2 := h1 ((g t).2 id).1
          rw [show (((g t).2 id).1, ((g t).2 id).2) = (g t).2 id from rfl, hat] at h2
          cases h2
      have hc := h.calm id fun u => by
        by_cases hu : u = t
        · rw [hu]; exact hsame.2
        · exact hoff u hu
      rw [hc]
      unfold current
      rw [hsame.1]
    · have hs : scanAll id sh'.trace = scanAll id sh.trace := by
        rw [scanT]; simp only [scanAct, e1]
      by_cases hi : id = i
      · subst hi
        have hp : (scanAll id sh.trace).1 = some (e.val, e.last) := h.pend id t _ hm3
        unfold current
        rw [hs, hp]
        cases ha
        exact set_get_same _ _ _
      · have hc := h.calm id fun u => by
          by_cases hu : u = t
          · rw [hu]; rw [e2 id hi] at hat; exact hat
          · exact hoff u hu
        have hg : sh'.world.get id = sh.world.get id := by
          cases ha
          exact set_get_other _ _ hi
        rw [hg, hc]
        unfold current
        rw [hs]
    · rw [acts_get ha hns]
      have hs : scanAll id sh'.trace = scanAll id sh.trace := by
        rw [scanT]; simp only [scanAct, e1]
      have hc := h.calm id fun u => by
        by_cases hu : u = t
        · rw [hu]; rw [e2] at hat; exact hat
        · exact hoff u hu
      rw [hc]
      unfold current
      rw [hs]
  · intro u l hin
    rw [htr, inside_snoc] at hin
    by_cases hu : t = u
    · subst hu
      rw [if_pos rfl] at hin
      rw [at1]
      have keep : inside t l sh.trace = true → a ≠ .unlock l → a ≠ .runlock l →
          ∃ b, (l, b) ∈ (post1 (g t).1 a).held := by
        intro h1 h2 h3
        obtain ⟨b, hb⟩ := h.inside t l h1
        exact ⟨b, held_keep hb h2 h3⟩
      cases a with
      | lock l' =>
        by_cases e : l' = l
        · subst e; exact ⟨true, List.mem_cons_self ..⟩
        · simp only [if_neg e] at hin; exact keep hin (by simp) (by simp)
      | rlock l' =>
        by_cases e : l' = l
        · subst e; exact ⟨false, List.mem_cons_self ..⟩
        · simp only [if_neg e] at hin; exact keep hin (by simp) (by simp)
      | unlock l' =>
        by_cases e : l' = l
        · subst e; simp at hin
        · simp only [if_neg e] at hin; exact keep hin (by simp [e]) (by simp)
      | runlock l' =>
        by_cases e : l' = l
        · subst e; simp at hin
        · simp only [if_neg e] at hin; exact keep hin (by simp) (by simp [e])
      | _ => exact keep hin (by simp) (by simp)
    · rw [if_neg hu] at hin
      rw [off u (Ne.symm hu)]; exact h.inside u l hin
  · intro pre u id c post he hin
    rw [htr] at he
    rcases split_snoc he with ⟨rfl, e, -⟩ | ⟨post', e⟩
    · obtain ⟨rfl, rfl⟩ := Prod.mk.inj e
      have hc : c = sh.world.get id := by cases ha; rfl
      rw [hc]
      obtain ⟨b, hb⟩ := h.inside t _ hin
      refine h.calm id fun v => ?_
      by_cases hv : v = t
      · rw [hv]; exact hm3
      · refine Classical.byContradiction fun hne => alone id v hv ?_ b hb
        intro e; rw [e] at hne; exact hne rfl
    · exact h.loads pre u id c post' e hin
  · intro pre u id e post he
    rw [htr] at he
    rcases split_snoc he with ⟨rfl, e', -⟩ | ⟨post', e'⟩
    · obtain ⟨rfl, rfl⟩ := Prod.mk.inj e'
      exact h.pend id t _ hm3
    · exact h.stores pre u id e post' e'
  · intro pre u id post he v
    rw [htr] at he
    rcases split_snoc he with ⟨rfl, e', -⟩ | ⟨post', e'⟩
    · obtain ⟨rfl, rfl⟩ := Prod.mk.inj e'
      rw [h.cur]
      refine Classical.byContradiction fun hne => ?_
      have h1 := (h.base.held_iff v _ _).1 (h.own id v (by intro e; rw [e] at hne; exact hne rfl))
      cases ha with
      | lock hl => exact hl _ h1 rfl
    · exact h.locks pre u id post' e' v

/-- Channel steps: nothing this is about changes. -/
theorem glob3_channel {start : (id : CacheId) → Entry (CVal id)} {g g' : Tid → G1 × G3}
    {sh sh' : Shared σ} {ext : List (Tid × Act)} (h : Glob3 start g sh)
    (hb : Glob1 (fun t => (g' t).1) sh') (ht : sh'.trace = sh.trace ++ ext)
    (hx : ∀ x ∈ ext, (∃ v, x.2 = .sendFlush v) ∨ (∃ b, x.2 = .sendFlushed b) ∨
      ∃ b, x.2 = .recvFlushed b)
    (hg : ∀ id, sh'.world.get id = sh.world.get id)
    (h1 : ∀ t, (g' t).1.held = (g t).1.held) (h2 : ∀ t, (g' t).2 = (g t).2) :
    Glob3 start g' sh' := by
  have hs : ∀ id, scanAll id sh'.trace = scanAll id sh.trace := by
    intro id
    rw [ht]
    clear hb ht hg
    induction ext generalizing sh with
    | nil => simp
    | cons x ext ih =>
      have e : scanAll id (sh.trace ++ [x]) = scanAll id sh.trace := by
        rw [scanAll_snoc]
        rcases hx x (List.mem_cons_self ..) with ⟨v, hv⟩ | ⟨v, hv⟩ | ⟨v, hv⟩ <;>
          simp [scanAct, hv, evOf]
      rw [show sh.trace ++ x :: ext = (sh.trace ++ [x]) ++ ext by simp]
      simp only [scanAll, List.foldl_append] at e ⊢
      rw [e]
      have : ∀ (s : Option (CVal id × Int) × (Tid → Cur)), ext.foldl (scanAct id) s = s := by
        intro s
        have hx' := fun y hy => hx y (List.mem_cons_of_mem _ hy)
        clear ih hx e
        induction ext with
        | nil => rfl
        | cons y ys ih =>
          rw [List.foldl_cons]
          have : scanAct id s y = s := by
            rcases hx' y (List.mem_cons_self ..) with ⟨v, hv⟩ | ⟨v, hv⟩ | ⟨v, hv⟩ <;>
              simp [scanAct, hv, evOf]
          rw [this]
          exact ih fun z hz => hx' z (List.mem_cons_of_mem _ hz)
      exact this _
  have hin : ∀ t l, Spec.inside t l sh'.trace = Spec.inside t l sh.trace := by
    intro t l
    rw [ht]
    unfold Spec.inside
    rw [List.foldl_append]
    generalize List.foldl _ false sh.trace = b
    clear hb ht hg hs
    induction ext with
    | nil => rfl
    | cons x ext ih =>
      rw [List.foldl_cons]
      have := ih fun z hz => hx z (List.mem_cons_of_mem _ hz)
      rcases hx x (List.mem_cons_self ..) with ⟨v, hv⟩ | ⟨v, hv⟩ | ⟨v, hv⟩ <;>
        (rw [show holdStep t l b x = b by simp [holdStep, hv]]; exact this)
  have old : ∀ pre t a post, sh'.trace = pre ++ (t, a) :: post → (∀ v, a ≠ .sendFlush v) →
      (∀ b, a ≠ .sendFlushed b) → (∀ b, a ≠ .recvFlushed b) →
      ∃ post', sh.trace = pre ++ (t, a) :: post' := by
    intro pre t a post he k1 k2 k3
    rw [ht] at he
    have no : (t, a) ∉ ext := by
      intro hmem
      rcases hx _ hmem with ⟨v, hv⟩ | ⟨v, hv⟩ | ⟨v, hv⟩
      · exact k1 v hv
      · exact k2 v hv
      · exact k3 v hv
    rcases List.append_eq_append_iff.mp he with ⟨as, -, e⟩ | ⟨cs, e1, e2⟩
    · exact absurd (by rw [e]; simp) no
    · cases cs with
      | nil => exact absurd (by rw [← show _ = ext from e2]; simp) no
      | cons y ys => rw [List.cons_append, List.cons.injEq] at e2; exact ⟨ys, by rw [e1, e2.1]⟩
  exact {
    base := hb
    cur := fun id t => by rw [hs, h2]; exact h.cur id t
    own := fun id t => by rw [h1, h2]; exact h.own id t
    pend := fun id t v => by rw [hs, h2]; exact h.pend id t v
    calm := fun id hall => by
      rw [hg, h.calm id fun t => by rw [← h2]; exact hall t]
      unfold current; rw [hs]
    inside := fun t l => by rw [hin, h1]; exact h.inside t l
    loads := by
      intro pre t id c post he
      obtain ⟨post', e⟩ := old pre t _ post he (by simp) (by simp) (by simp)
      exact h.loads pre t id c post' e
    stores := by
      intro pre t id c post he
      obtain ⟨post', e⟩ := old pre t _ post he (by simp) (by simp) (by simp)
      exact h.stores pre t id c post' e
    locks := by
      intro pre t id post he
      obtain ⟨post', e⟩ := old pre t _ post he (by simp) (by simp) (by simp)
      exact h.locks pre t id post' e }

theorem glob3_start (start : (id : CacheId) → Entry (CVal id)) (w : World σ) (g : Tid → G1 × G3)
    (hw : g .worker = (idle1, G3.quiet)) (hc : ∀ i, g (.client i) = ({}, G3.quiet))
    (h : ∀ id, w.get id = start id) : Glob3 start g ({ world := w } : Shared σ) where
  base := glob1_start w _ (by rw [hw]) fun i => by rw [hc]
  cur := by
    intro id t
    cases t with
    | worker => rw [hw]; rfl
    | client i => rw [hc]; rfl
  own := by
    intro id t hq
    cases t with
    | worker => rw [hw] at hq; exact absurd rfl hq
    | client i => rw [hc] at hq; exact absurd rfl hq
  pend := by
    intro id t v hq
    cases t with
    | worker => rw [hw] at hq; cases hq
    | client i => rw [hc] at hq; cases hq
  calm := fun id _ => h id
  inside := by intro t l hin; cases hin
  loads := by intro pre t id c post he; simp at he
  stores := by intro pre t id c post he; simp at he
  locks := by intro pre t id post he; simp at he

/-- The rules and the invariant. -/
def scheme3 (S : Setup σ) (start : (id : CacheId) → Entry (CVal id)) : Scheme S (G1 × G3) where
  R := R1.prod R3
  Q c g r := Returns c g.1 r ∧ g.2 = G3.quiet
  unborn := ({}, G3.quiet)
  born c := (born1 c, G3.quiet)
  idle := (idle1, G3.quiet)
  flushing t := (flushing1 t, G3.quiet)
  K c g := K1 c g.1
  k_born c := ⟨rfl, rfl, rfl⟩
  k_post := k1_post
  G := Glob3 start
  ok_call c _ := ok_prod (ok_call1 S.cv c) (r3_call S.cv c)
  ok_tick k := ok_mono (ok_prod ((scheme1 S).ok_tick k) (r3_onTick (Q := fun g _ => g = _) k rfl))
    (fun _ _ h => Prod.ext h.1 h.2)
  ok_flush t := ok_mono (ok_prod ((scheme1 S).ok_flush t)
    (r3_flushCaches (Q := fun g _ => g = _) t rfl)) (fun _ _ h => Prod.ext h.1 h.2)
  may_act _ ha := ⟨may1_act ha, trivial⟩
  g_act := glob3_act
  g_env h _ := { h with base := glob_congr h.base (fun _ => sameCore_refl _) rfl rfl }
  g_born {g sh c i} h _ hi := by
    refine glob3_channel (ext := []) h ?_ (by simp) (by simp) (fun _ => rfl) ?_ ?_
    · rw [fst_upd]; exact glob1_born h.base (by rw [hi])
    · intro t
      by_cases e : t = .client i
      · subst e; rw [upd_same, hi]; rfl
      · rw [upd_other _ _ e]
    · intro t
      by_cases e : t = .client i
      · subst e; rw [upd_same, hi]
      · rw [upd_other _ _ e]
  may_send _ _ := ⟨trivial, trivial⟩
  g_send {g sh i t} h hw hm := by
    refine glob3_channel (ext := [(.client i, .sendFlush t)]) h ?_ rfl (by simp) (fun _ => rfl) ?_ ?_
    · rw [fst_upd, fst_upd]
      exact glob1_send h.base (by rw [hw]) hm.1
    · intro u
      by_cases e : u = .worker
      · subst e; rw [upd_same, hw]; rfl
      · rw [upd_other _ _ e]
        by_cases e : u = .client i
        · subst e; rw [upd_same]; rfl
        · rw [upd_other _ _ e]
    · intro u
      by_cases e : u = .worker
      · subst e; rw [upd_same, hw]
      · rw [upd_other _ _ e]
        by_cases e : u = .client i
        · subst e; rw [upd_same]; rfl
        · rw [upd_other _ _ e]
  may_answer _ := ⟨trivial, trivial⟩
  may_recv h hm _ := ⟨may1_recv h.base hm.1, trivial⟩
  g_recv {g sh i b} h hm hr := by
    refine glob3_channel (ext := [(.worker, .sendFlushed b), (.client i, .recvFlushed b)]) h ?_ rfl
      (by simp) (fun id => by cases id <;> rfl) ?_ ?_
    · rw [fst_upd, fst_upd]
      exact glob1_recv h.base hm.1 hr.1
    · intro u
      by_cases e : u = .worker
      · subst e; rw [upd_same]; rfl
      · rw [upd_other _ _ e]
        by_cases e : u = .client i
        · subst e; rw [upd_same]; rfl
        · rw [upd_other _ _ e]
    · intro u
      by_cases e : u = .worker
      · subst e; rw [upd_same]; rfl
      · rw [upd_other _ _ e]
        by_cases e : u = .client i
        · subst e; rw [upd_same]; rfl
        · rw [upd_other _ _ e]

theorem inv3 {S : Setup σ} {w : World σ} {s : Sys σ} (h : Reachable S (Sys.initial w) s) :
    ∃ g, (scheme3 S fun id => w.get id).Inv g s :=
  (scheme3 S fun id => w.get id).sound
    (glob3_start _ w (scheme3 S fun id => w.get id).start rfl (fun _ => rfl) fun _ => rfl) h

end Comfo
