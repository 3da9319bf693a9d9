import Verif.Spec.ServerLog
import Verif.Props.Main
import Verif.Props.Worker
/-!
# C97: the log of the running server tells all refreshes that failed
-/
namespace Comfo.Props
open Spec Comfo.Pb Comfo.Twirp Comfo.Log

/-! ## The logging changes nothing else -/

theorem flushCachesLogged_erase (W : Wording) (t : Int) :
    (flushCachesLogged W t).bind (fun _ => .ret ()) = flushCaches t := by
  have e : ∀ id, ((updateLogged W id true).bind fun rs => Prog.sendFlushed true <| .ret rs).bind
      (fun _ => .ret ()) = (update id true).bind fun _ => .sendFlushed true <| .ret () := by
    intro id
    simp only [← updateLogged_erase W, bind_assoc, Prog.bind]
  unfold flushCachesLogged flushCaches
  repeat' split
  all_goals first
    | exact e _
    | rfl
    | simp only [updateCachesLogged, updateCaches, ← updateLogged_erase W, bind_assoc, Prog.bind]

theorem onTickLogged_erase (W : Wording) (k : Tick) :
    (onTickLogged W k).bind (fun _ => .ret ()) = onTick k := by
  cases k <;> simp only [onTickLogged, onTick, ← updateLogged_erase W, bind_assoc, Prog.bind]

theorem pollLoopLogged_erase (W : Wording) (a b : UInt8) (n : Nat) (rs : List Record) :
    (pollLoopLogged W a b n rs).bind (fun x => .ret x.1) = pollLoop a b n := by
  induction n generalizing rs with
  | zero => rfl
  | succ n ih =>
    simp only [pollLoopLogged, pollLoop, ← updateLogged_erase W, bind_assoc, Prog.bind]
    congr 1
    funext r
    congr 1
    funext f
    split
    · simp only [Prog.bind]
      congr 1
      funext g
      split
      · rfl
      · simp only [Prog.bind, ih]
    · simp only [Prog.bind, ih]

theorem updatePollLogged_erase (W : Wording) (n : Nat) (v : UInt8) :
    (updatePollLogged W n v).bind (fun x => .ret x.1) = updatePoll n v := by
  simp only [updatePollLogged, updatePoll, Prog.bind]
  congr 2
  funext c
  generalize c.val.lookup v = z
  obtain ⟨⟨i, o⟩, _ | e⟩ := z
  · simp only [Prog.bind, pollLoopLogged_erase]
  · rfl

theorem bind_ret' (p : Prog α) : (p.bind fun a => .ret a) = p := by
  induction p with
  | ret _ | panic => rfl
  | _ =>
    rename_i ih
    simp only [Prog.bind, ih]

theorem progLogged_erase (W : Wording) (cv : FloatConv) (c : Call) :
    (progLogged W cv c).bind (fun x => .ret x.1) = c.prog cv := by
  cases c with
  | setComfort v =>
    simp only [progLogged, Call.prog, Prog.map, bind_assoc, Prog.bind, setComfortTempLogged, setComfortTemp]
    congr 1
    funext t
    congr 1
    funext x
    split
    · rfl
    · split
      · simp only [Prog.bind, bind_assoc]
        congr 2
        funext e
        cases e with
        | some e => rfl
        | none => simp only [← updateLogged_erase W, bind_assoc, Prog.bind]
      · rfl
  | setSpeed a r =>
    simp only [progLogged, Call.prog, Prog.map, bind_assoc, Prog.bind, setFanSpeedLogged, setFanSpeed]
    congr 1
    funext t
    congr 2
    funext x
    generalize modifySpeed x.val.currentMode a r = z
    obtain ⟨s, _ | e⟩ := z
    rotate_left
    · rfl
    · simp only
      split
      · simp only [Prog.bind, bind_assoc]
        congr 1
        funext e
        cases e with
        | some e => rfl
        | none =>
          simp only [← updatePollLogged_erase W, bind_assoc, Prog.bind]
          congr 1
          funext y
          obtain ⟨y, rs⟩ := y
          cases y with
          | some e => rfl
          | none => simp only [← updateLogged_erase W, bind_assoc, Prog.bind]
      · rfl
  | setProfile m t =>
    have e : ∀ (start : Int) (o tgt mode : UInt8),
        (if o ≠ tgt then
          (setFanProfileP mode tgt).bind fun err =>
          match err with
          | some e => Prog.unlock .fan <| .ret (Rpc.err (.internal (.lib e)), ([] : List Record))
          | none =>
            (updateLogged W .profiles true).bind fun rs =>
            .now fun stop => .unlock .fan <| .ret (Rpc.ok (SpeedModified.mk true o.toUInt32 t (timeSub stop start)), rs)
        else .now fun stop => .unlock .fan <| .ret (.ok ⟨false, o.toUInt32, t, timeSub stop start⟩, [])).bind
          (fun x => .ret (Resp.speed x.1)) =
        (if o ≠ tgt then
          (setFanProfileP mode tgt).bind fun err =>
          match err with
          | some e => Prog.unlock .fan <| .ret (Rpc.err (.internal (.lib e)))
          | none =>
            (update .profiles true).bind fun _ =>
            .now fun stop => .unlock .fan <| .ret (Rpc.ok (SpeedModified.mk true o.toUInt32 t (timeSub stop start)))
        else .now fun stop => .unlock .fan <| .ret (.ok ⟨false, o.toUInt32, t, timeSub stop start⟩)).bind
          (fun x => .ret (Resp.speed x)) := by
      intro start o tgt mode
      split
      · simp only [Prog.bind, bind_assoc]
        congr 1
        funext e
        cases e with
        | some e => rfl
        | none => simp only [← updateLogged_erase W, bind_assoc, Prog.bind]
      · rfl
    simp only [progLogged, Call.prog, Prog.map, bind_assoc, Prog.bind, setFanProfileLogged, setFanProfileRpc]
    congr 1
    funext start
    split
    · rfl
    · split
      · rfl
      · simp only [Prog.bind]
        congr 1
        repeat' split
        · simp only [Prog.bind]; congr 1; funext c; exact e _ _ _ _
        · simp only [Prog.bind]; congr 1; funext c; exact e _ _ _ _
        · simp only [Prog.bind]; congr 1; funext c; exact e _ _ _ _
        · simp only [Prog.bind]; congr 1; funext c; exact e _ _ _ _
        · rfl
  | _ => 
    simp only [progLogged, Prog.map, bind_assoc, Prog.bind]
    exact bind_ret' _

/-! ## The log accounts for what was done -/

theorem Accounts.append {W : Wording} {as bs : List Act} {rs ss : List Record} (h : Accounts W as rs)
    (h' : Accounts W bs ss) : Accounts W (as ++ bs) (rs ++ ss) := by
  induction h with
  | nil => exact h'
  | other hn _ ih => exact .other hn ih
  | good ht ho _ ih =>
    simp only [List.cons_append, List.append_assoc]
    exact .good ht ho ih
  | bad ht ho hx hr _ ih =>
    simp only [List.cons_append, List.append_assoc]
    exact .bad ht ho hx hr ih

/-- No refresh begins and nothing is stored. -/
def NoRefresh (acts : List Act) : Prop := ∀ a ∈ acts, refreshing a = false

theorem NoRefresh.accounts {acts : List Act} (h : NoRefresh acts) (W : Wording) :
    Accounts W (effects acts) [] := by
  have : ∀ as : List Act, NoRefresh as → Accounts W as [] := by
    intro as
    induction as with
    | nil => exact fun _ => .nil
    | cons a as ih =>
      intro h
      exact .other (h a (by simp)) (ih fun b hm => h b (by simp [hm]))
  exact this _ fun a hm => h a (List.mem_filter.1 hm).1

theorem noRefresh_transaction {cmd : UInt8} {d : List UInt8} {x : Bool} {evs : List IoEv}
    {r : Packet × Option Err} (h : Transaction cmd d x evs r) : NoRefresh (evs.map toAct) := by
  cases h <;> simp [NoRefresh, toAct, refreshing]

theorem noRefresh_query {cmd : UInt8} {d : List UInt8} {x : Bool} {acts : List Act} {r : Packet × Option Err}
    (h : QueryActs cmd d x acts r) : NoRefresh acts := by
  obtain ⟨evs, h1, rfl⟩ := h
  intro a hm
  have := noRefresh_transaction h1 a
  simp only [List.mem_cons, List.mem_append, List.not_mem_nil, or_false] at hm
  rcases hm with (rfl | hm) | rfl
  · rfl
  · exact this hm
  · rfl

theorem noRefresh_set {inp : SetRequest} {acts : List Act} {e : Option Err} (h : SetActs inp acts e) :
    NoRefresh acts := by
  rcases h with ⟨_, _, -, h⟩ | ⟨rfl, -⟩
  · exact noRefresh_query h
  · simp [NoRefresh]

theorem noRefresh_fetch {id : CacheId} {acts : List Act} {r} (h : FetchActs id acts r) : NoRefresh acts := by
  obtain ⟨_, _, h, -⟩ := h
  exact noRefresh_query h

theorem noRefresh_profile {m v : UInt8} {acts : List Act} {e : Option Err} (h : ProfileActs m v acts e) :
    NoRefresh acts := by
  intro a hm
  cases h with
  | badMode => simp at hm
  | badSpeed => simp at hm
  | getFailed fa v e _ _ hf =>
    have := noRefresh_fetch hf a
    simp only [List.mem_cons, List.mem_append, List.not_mem_nil, or_false] at hm
    rcases hm with rfl | hm | rfl
    · rfl
    · exact this hm
    · rfl
  | set fa sa v e _ _ hf hs =>
    have h1 := noRefresh_fetch hf a
    have h2 := noRefresh_set hs a
    simp only [List.mem_cons, List.mem_append, List.not_mem_nil, or_false] at hm
    rcases hm with rfl | (hm | hm) | rfl
    · rfl
    · exact h1 hm
    · exact h2 hm
    · rfl

theorem post_updateLogged (W : Wording) (id : CacheId) (force : Bool) :
    (updateLogged W id force).Post fun acts recs => Accounts W (effects acts) recs := by
  refine (C93_refresh W id force).mono fun acts recs h => ?_
  rcases h with ⟨h, rfl⟩ | ⟨t, evs, q, e, ht, ⟨v, ho, h, rfl⟩ | ⟨ho, h, x, r, rfl, hr, hx⟩⟩
  · rw [h]; exact .nil
  · rw [h]; exact .good ht ho .nil
  · rw [h]
    have := Accounts.bad (t := t) ht ho hx hr (Accounts.nil (W := W))
    rwa [List.append_nil] at this

theorem acc_cons {W : Wording} {a : Act} (hn : refreshing a = false) {as : List Act} {rs : List Record}
    (h : Accounts W (effects as) rs) : Accounts W (effects (a :: as)) rs := by
  have : effects (a :: as) = effects [a] ++ effects as := effects_append' [a] as
  rw [this]
  refine Accounts.append (rs := []) (NoRefresh.accounts ?_ W) h
  intro b hm
  rw [List.mem_singleton.1 hm]
  exact hn

theorem acc_append {W : Wording} {as bs : List Act} {rs ss : List Record}
    (h : Accounts W (effects as) rs) (h' : Accounts W (effects bs) ss) :
    Accounts W (effects (as ++ bs)) (rs ++ ss) := by
  rw [effects_append']
  exact Accounts.append h h'

theorem acc_quiet {W : Wording} {as bs : List Act} {ss : List Record}
    (h : NoRefresh as) (h' : Accounts W (effects bs) ss) : Accounts W (effects (as ++ bs)) ss :=
  acc_append (rs := []) (h.accounts W) h'

theorem acc_snd {W : Wording} {as bs : List Act} {rs : List Record}
    (h : Accounts W (effects as) rs) (h' : NoRefresh bs) : Accounts W (effects (as ++ bs)) rs := by
  have := acc_append h (h'.accounts W)
  rwa [List.append_nil] at this

/-- Shorthand for what is proved of every program. -/
def Told97 (W : Wording) (p : Prog (α × List Record)) : Prop :=
  p.Post fun acts x => Accounts W (effects acts) x.2

theorem post_pollLogged (W : Wording) (a b : UInt8) (n : Nat) (rs : List Record) :
    (pollLoopLogged W a b n rs).Post fun acts x => ∃ ss, x.2 = rs ++ ss ∧ Accounts W (effects acts) ss := by
  induction n generalizing rs with
  | zero => exact ⟨[], by simp, .nil⟩
  | succ n ih =>
    unfold pollLoopLogged
    refine (post_updateLogged W .fans true).seq fun as r h => ?_
    have next : ∀ pre : List Act, NoRefresh pre → (pollLoopLogged W a b n (rs ++ r)).Post fun bs x =>
        ∃ ss, x.2 = rs ++ ss ∧ Accounts W (effects (as ++ (pre ++ .sleep 500000000 :: bs))) ss := by
      intro pre hp
      refine (ih (rs ++ r)).mono fun bs x hx => ?_
      obtain ⟨ss, h1, h2⟩ := hx
      exact ⟨r ++ ss, by rw [h1, List.append_assoc], acc_append h (acc_quiet hp (acc_cons rfl h2))⟩
    simp only [Prog.Post]
    intro f
    split
    · simp only [Prog.Post]
      intro g
      split
      · exact ⟨r, rfl, acc_snd h (by simp [NoRefresh, refreshing])⟩
      · exact next [.load .fans f, .load .fans g] (by simp [NoRefresh, refreshing])
    · exact next [.load .fans f] (by simp [NoRefresh, refreshing])

theorem post_updatePollLogged (W : Wording) (n : Nat) (v : UInt8) : Told97 W (updatePollLogged W n v) := by
  unfold Told97 updatePollLogged
  simp only [Prog.Post]
  intro c
  generalize c.val.lookup v = z
  obtain ⟨⟨i, o⟩, _ | e⟩ := z
  · simp only [Prog.Post]
    refine (post_pollLogged W i o n []).mono fun as x h => ?_
    obtain ⟨ss, h1, h2⟩ := h
    rw [h1]
    exact acc_quiet (as := [.rlock _, .load _ c, .runlock _]) (by simp [NoRefresh, refreshing]) h2
  · exact (NoRefresh.accounts (acts := [.rlock _, .load _ c]) (by simp [NoRefresh, refreshing]) W)

theorem post_setComfortLogged (W : Wording) (cv : FloatConv) (x : UInt32) :
    Told97 W (setComfortTempLogged W cv x) := by
  unfold Told97 setComfortTempLogged
  simp only [Prog.Post]
  intro t c
  split
  · exact NoRefresh.accounts (by simp [NoRefresh, refreshing]) W
  · split
    · simp only [Prog.Post]
      refine Prog.Post.seq (post_set _) fun as e h => ?_
      have hq := noRefresh_set h
      cases e with
      | some e =>
        simp only [Prog.Post]
        exact acc_cons rfl (acc_cons rfl (acc_cons rfl
          (acc_quiet hq (NoRefresh.accounts (by simp [NoRefresh, refreshing]) W))))
      | none =>
        refine (post_updateLogged W .temps true).seq fun bs rs hb => ?_
        simp only [Prog.Post]
        intro stop
        exact acc_cons rfl (acc_cons rfl (acc_cons rfl
          (acc_quiet hq (acc_snd hb (by simp [NoRefresh, refreshing])))))
    · intro stop
      exact NoRefresh.accounts (by simp [NoRefresh, refreshing]) W

theorem post_setSpeedLogged (W : Wording) (a : UInt32) (r : Bool) : Told97 W (setFanSpeedLogged W a r) := by
  unfold Told97 setFanSpeedLogged
  simp only [Prog.Post]
  intro t c
  generalize modifySpeed c.val.currentMode a r = z
  obtain ⟨s, _ | e⟩ := z
  · simp only
    split
    · refine Prog.Post.seq (post_set _) fun as e h => ?_
      have hq := noRefresh_set h
      cases e with
      | some e =>
        simp only [Prog.Post]
        exact acc_cons rfl (acc_cons rfl (acc_cons rfl
          (acc_quiet hq (NoRefresh.accounts (by simp [NoRefresh, refreshing]) W))))
      | none =>
        refine Prog.Post.seq (post_updatePollLogged W 10 s) fun bs x hb => ?_
        obtain ⟨x, rs⟩ := x
        cases x with
        | some e =>
          simp only [Prog.Post]
          exact acc_cons rfl (acc_cons rfl (acc_cons rfl
            (acc_quiet hq (acc_snd hb (by simp [NoRefresh, refreshing])))))
        | none =>
          refine (post_updateLogged W .profiles true).seq fun cs ss hc => ?_
          simp only [Prog.Post]
          intro stop
          exact acc_cons rfl (acc_cons rfl (acc_cons rfl
            (acc_quiet hq (acc_append hb (acc_snd hc (by simp [NoRefresh, refreshing]))))))
    · intro stop
      exact NoRefresh.accounts (by simp [NoRefresh, refreshing]) W
  · exact NoRefresh.accounts (by simp [NoRefresh, refreshing]) W

theorem post_setProfileLogged (W : Wording) (m x : UInt32) : Told97 W (setFanProfileLogged W m x) := by
  unfold Told97 setFanProfileLogged
  simp only [Prog.Post]
  intro t
  have key : ∀ (c : Entry FanProfiles) (o tgt mode : UInt8),
      (if o ≠ tgt then
          (setFanProfileP mode tgt).bind fun err =>
          match err with
          | some e => Prog.unlock .fan <| .ret (Rpc.err (.internal (.lib e)), ([] : List Record))
          | none =>
            (updateLogged W .profiles true).bind fun rs =>
            .now fun stop => .unlock .fan <| .ret (Rpc.ok (SpeedModified.mk true o.toUInt32 x (timeSub stop t)), rs)
        else .now fun stop => .unlock .fan <| .ret (.ok ⟨false, o.toUInt32, x, timeSub stop t⟩, [])).Post
      fun as y => Accounts W (effects (.now t :: .lock .fan :: .load .profiles c :: as)) y.2 := by
    intro c o tgt mode
    split
    · refine Prog.Post.seq (post_setFanProfileP mode tgt) fun as e h => ?_
      have hq := noRefresh_profile h
      cases e with
      | some e =>
        simp only [Prog.Post]
        exact acc_cons rfl (acc_cons rfl (acc_cons rfl
          (acc_quiet hq (NoRefresh.accounts (by simp [NoRefresh, refreshing]) W))))
      | none =>
        refine (post_updateLogged W .profiles true).seq fun cs ss hc => ?_
        simp only [Prog.Post]
        intro stop
        exact acc_cons rfl (acc_cons rfl (acc_cons rfl
          (acc_quiet hq (acc_snd hc (by simp [NoRefresh, refreshing])))))
    · intro stop
      exact NoRefresh.accounts (by simp [NoRefresh, refreshing]) W
  split
  · exact NoRefresh.accounts (by simp [NoRefresh, refreshing]) W
  · split
    · exact NoRefresh.accounts (by simp [NoRefresh, refreshing]) W
    · simp only [Prog.Post]
      repeat' split
      · exact fun c => key c _ _ _
      · exact fun c => key c _ _ _
      · exact fun c => key c _ _ _
      · exact fun c => key c _ _ _
      · trivial

theorem noRefresh_queryP (p : Packet) : (queryPacketP p).Post fun acts _ => NoRefresh acts := by
  by_cases h : p.data.length ≤ 255
  · exact (post_query h).mono fun as r h => noRefresh_query h
  · unfold queryPacketP
    have hm : ∃ b e, marshalPacket p = (b, some e) := by
      unfold marshalPacket
      simp only [show p.data.length > 255 by omega, if_true]
      exact ⟨_, _, rfl⟩
    obtain ⟨b, e, hm⟩ := hm
    rw [hm]
    simp [Prog.Post, NoRefresh, refreshing]

theorem noRefresh_call (cv : FloatConv) (c : Call) :
    (∃ v, c = .setComfort v) ∨ (∃ a r, c = .setSpeed a r) ∨ (∃ m t, c = .setProfile m t) ∨
    (c.prog cv).Post fun acts _ => NoRefresh acts := by
  have get : ∀ {β : Type} (id : CacheId) (conv : CVal id → β) (k : Rpc β → Resp),
      ((protobuf id conv).map k).Post fun acts _ => NoRefresh acts := by
    intro β id conv k
    refine Prog.Post.map ?_
    simp only [protobuf, Prog.Post]
    intro c
    simp [NoRefresh, refreshing]
  cases c with
  | setComfort v => exact .inl ⟨v, rfl⟩
  | setSpeed a r => exact .inr (.inl ⟨a, r, rfl⟩)
  | setProfile m t => exact .inr (.inr (.inl ⟨m, t, rfl⟩))
  | getBoot => exact .inr (.inr (.inr (get _ _ _)))
  | getBypass => exact .inr (.inr (.inr (get _ _ _)))
  | getErrors => exact .inr (.inr (.inr (get _ _ _)))
  | getFans => exact .inr (.inr (.inr (get _ _ _)))
  | getProfiles => exact .inr (.inr (.inr (get _ _ _)))
  | getTemps => exact .inr (.inr (.inr (get _ _ _)))
  | flush t =>
    refine .inr (.inr (.inr (Prog.Post.map ?_)))
    simp only [flushCacheRpc, Prog.Post]
    intro _ _ _
    simp [NoRefresh, refreshing]
  | libQuery p => exact .inr (.inr (.inr (Prog.Post.map (noRefresh_queryP p))))
  | libGet id =>
    exact .inr (.inr (.inr (Prog.Post.map ((post_fetch id).mono fun _ _ h => noRefresh_fetch h))))
  | libSetComfort v =>
    exact .inr (.inr (.inr (Prog.Post.map ((post_set _).mono fun _ _ h => noRefresh_set h))))
  | libSetSpeed v =>
    exact .inr (.inr (.inr (Prog.Post.map ((post_set _).mono fun _ _ h => noRefresh_set h))))
  | libSetProfile m s =>
    exact .inr (.inr (.inr (Prog.Post.map ((post_setFanProfileP m s).mono fun _ _ h => noRefresh_profile h))))
  | libSetProfiles q =>
    exact .inr (.inr (.inr (Prog.Post.map ((post_set _).mono fun _ _ h => noRefresh_set h))))

theorem post_progLogged (W : Wording) (cv : FloatConv) (c : Call) : Told97 W (progLogged W cv c) := by
  rcases noRefresh_call cv c with ⟨v, rfl⟩ | ⟨a, r, rfl⟩ | ⟨m, t, rfl⟩ | h
  · exact Prog.Post.map (post_setComfortLogged W cv v)
  · exact Prog.Post.map (post_setSpeedLogged W a r)
  · exact Prog.Post.map (post_setProfileLogged W m t)
  · by_cases h1 : ∃ v, c = .setComfort v
    · obtain ⟨v, rfl⟩ := h1; exact Prog.Post.map (post_setComfortLogged W cv v)
    by_cases h2 : ∃ a r, c = .setSpeed a r
    · obtain ⟨a, r, rfl⟩ := h2; exact Prog.Post.map (post_setSpeedLogged W a r)
    by_cases h3 : ∃ m t, c = .setProfile m t
    · obtain ⟨m, t, rfl⟩ := h3; exact Prog.Post.map (post_setProfileLogged W m t)
    have e : progLogged W cv c = (c.prog cv).map fun r => (r, []) := by
      cases c <;> first | rfl | exact absurd ⟨_, rfl⟩ h1 | exact absurd ⟨_, _, rfl⟩ h2 | exact absurd ⟨_, _, rfl⟩ h3
    unfold Told97
    rw [e]
    exact Prog.Post.map (h.mono fun as a h => NoRefresh.accounts h W)

theorem post_flushCachesLogged (W : Wording) (t : Int) :
    (flushCachesLogged W t).Post fun acts recs => Accounts W (effects acts) recs := by
  have one : ∀ id, ((updateLogged W id true).bind fun rs => Prog.sendFlushed true <| .ret rs).Post
      fun acts recs => Accounts W (effects acts) recs := by
    intro id
    refine (post_updateLogged W id true).seq fun as rs h => ?_
    exact acc_snd h (by simp [NoRefresh, refreshing])
  unfold flushCachesLogged
  repeat' split
  all_goals first
    | exact one _
    | exact NoRefresh.accounts (acts := [.sendFlushed false]) (by simp [NoRefresh, refreshing]) W
    | skip
  unfold updateCachesLogged
  simp only [bind_assoc, Prog.bind]
  refine (post_updateLogged W _ true).seq fun a1 r1 h1 => ?_
  refine (post_updateLogged W _ true).seq fun a2 r2 h2 => ?_
  refine (post_updateLogged W _ true).seq fun a3 r3 h3 => ?_
  refine (post_updateLogged W _ true).seq fun a4 r4 h4 => ?_
  refine (post_updateLogged W _ true).seq fun a5 r5 h5 => ?_
  refine (post_updateLogged W _ true).seq fun a6 r6 h6 => ?_
  simp only [Prog.Post, List.append_assoc]
  exact acc_append h1 (acc_append h2 (acc_append h3 (acc_append h4 (acc_append h5
    (acc_snd h6 (by simp [NoRefresh, refreshing]))))))

theorem post_onTickLogged (W : Wording) (k : Tick) :
    (onTickLogged W k).Post fun acts recs => Accounts W (effects acts) recs := by
  cases k <;>
  · refine (post_updateLogged W _ false).seq fun a1 r1 h1 => ?_
    refine (post_updateLogged W _ false).seq fun a2 r2 h2 => ?_
    simp only [Prog.Post, List.append_nil]
    exact acc_append h1 h2

theorem post_job (W : Wording) (j : Job) :
    (j.logged W).Post fun acts recs => Accounts W (effects acts) recs := by
  cases j with
  | tick k => exact post_onTickLogged W k
  | flush t => exact post_flushCachesLogged W t

theorem job_erase (W : Wording) (j : Job) : (j.logged W).bind (fun _ => .ret ()) = j.prog := by
  cases j with
  | tick k => exact onTickLogged_erase W k
  | flush t => exact flushCachesLogged_erase W t

/-! ## The log names each failure -/

theorem gets_plain {id : CacheId} {as : List Act} (h : NoRefresh as) (bs : List Act) :
    gets id (as ++ bs) = gets id bs := by
  induction as with
  | nil => rfl
  | cons a as ih =>
    have ha := h a (by simp)
    have := ih fun b hb => h b (by simp [hb])
    cases a <;> first | (simp [refreshing] at ha; done) | exact this

theorem failures_plain {as : List Act} (h : NoRefresh as) (bs : List Act) :
    failures (as ++ bs) = failures bs := by
  induction as with
  | nil => rfl
  | cons a as ih =>
    have ha := h a (by simp)
    have := ih fun b hb => h b (by simp [hb])
    cases a <;> first | (simp [refreshing] at ha; done) | exact this

theorem Accounts.gets {W : Wording} {acts : List Act} {recs : List Record} (h : Accounts W acts recs)
    (id : CacheId) : Spec.gets id acts = false := by
  induction h with
  | nil => rfl
  | @other a acts recs hn _ ih => cases a <;> first | (simp [refreshing] at hn; done) | exact ih
  | good => rfl
  | bad => rfl

theorem Accounts.names {W : Wording} {acts : List Act} {recs : List Record} (h : Accounts W acts recs) :
    NamesEach (failures acts) recs := by
  induction h with
  | nil => trivial
  | @other a acts recs hn _ ih => cases a <;> first | (simp [refreshing] at hn; done) | exact ih
  | @good id t evs q e v acts recs ht ho _ ih =>
    have hq := noRefresh_transaction ht
    have : failures (.note id t :: (evs.map toAct ++ .store id ⟨v, t⟩ :: acts)) = failures acts := by
      simp only [failures, gets_plain hq, Spec.gets, if_true, failures_plain hq]
    rw [this]
    exact ih
  | @bad id t evs q e x r acts recs ht ho hx hr h ih =>
    have hq := noRefresh_transaction ht
    have : failures (.note id t :: (evs.map toAct ++ acts)) = id :: failures acts := by
      simp [failures, gets_plain hq, failures_plain hq, Accounts.gets h]
    rw [this]
    exact ⟨⟨hr.1, hr.2.1⟩, ih⟩

/-! ## Runs -/

theorem path_ret {a : α} {acts : List Act} {q : Prog α} (h : Path (.ret a) acts q) :
    acts = [] ∧ q = .ret a := by
  rcases path_uncons h with ⟨h1, h2⟩ | ⟨_, _, _, _, hn, _⟩
  · exact ⟨h1, h2.symm⟩
  · cases hn

theorem path_erase {p : Prog α} {f : α → β} {acts : List Act} {b : β}
    (h : Path (p.bind fun a => .ret (f a)) acts (.ret b)) : ∃ a, Path p acts (.ret a) ∧ f a = b := by
  obtain ⟨a, as, bs, rfl, h1, h2⟩ := path_bind h
  obtain ⟨rfl, h3⟩ := path_ret h2
  exact ⟨a, by simpa using h1, (Prog.ret.inj h3).symm⟩

theorem next_unique {p q q' : Prog α} {a : Act} (h : p.Next a q) (h' : p.Next a q') : q = q' := by
  cases h <;> cases h' <;> rfl

theorem path_unique {p : Prog α} {acts : List Act} {q q' : Prog α} (h : Path p acts q)
    (h' : Path p acts q') : q = q' := by
  induction acts generalizing p with
  | nil =>
    rcases path_uncons h with ⟨_, rfl⟩ | ⟨_, _, _, h, _⟩
    · rcases path_uncons h' with ⟨_, rfl⟩ | ⟨_, _, _, h, _⟩
      · rfl
      · cases h
    · cases h
  | cons a as ih =>
    rcases path_uncons h with ⟨h, _⟩ | ⟨_, p1, _, e1, hn1, hp1⟩
    · cases h
    rcases path_uncons h' with ⟨h, _⟩ | ⟨_, p2, _, e2, hn2, hp2⟩
    · cases h
    cases e1; cases e2
    cases next_unique hn1 hn2
    exact ih hp1 hp2

/-- **C97** Whatever a request has done when it is answered, what it logged is determined by that, and
accounts for it: each of its refreshes either stored the value that the unit reported in one exchange,
or there is one record of level error for it, in order, with the name of the cache and the error. There
are no other records. -/
theorem C97_request (W : Wording) {S : Setup σ} {w : World σ} {s : Sys σ}
    (h : Reachable S (Sys.initial w) s) {i : Nat} {c : Call} {r : Resp} (ha : Answered s i c r) :
    ∃ recs, Path (progLogged W S.cv c) (actsOf (.client i) s.sh.trace) (.ret (r, recs)) ∧
      Accounts W (effects (actsOf (.client i) s.sh.trace)) recs ∧
      NamesEach (failures (effects (actsOf (.client i) s.sh.trace))) recs ∧
      ∀ r' recs', Path (progLogged W S.cv c) (actsOf (.client i) s.sh.trace) (.ret (r', recs')) →
        r' = r ∧ recs' = recs := by
  have hp := answered_path h ha
  rw [← progLogged_erase W] at hp
  obtain ⟨⟨r1, recs⟩, h1, rfl⟩ := path_erase hp
  have hacc := (post_progLogged W S.cv c).path h1
  refine ⟨recs, h1, hacc, Accounts.names hacc, fun r' recs' h' => ?_⟩
  have := Prog.ret.inj (path_unique h' h1)
  exact ⟨congrArg Prod.fst this, congrArg Prod.snd this⟩

theorem jobs_logged (W : Wording) {js : List Job} {acts : List Act} (h : JobsRun js acts) :
    ∃ recs, JobsLogged W js acts recs ∧ Accounts W (effects acts) recs := by
  induction h with
  | nil => exact ⟨[], .nil, .nil⟩
  | @snoc js acts j more _ hp ih =>
    obtain ⟨recs, h1, h2⟩ := ih
    rw [← job_erase W] at hp
    obtain ⟨rs, h3, -⟩ := path_erase hp
    exact ⟨recs ++ rs, .snoc h1 h3, acc_append h2 ((post_job W j).path h3)⟩

/-- **C97** The same for the worker, with its timers and the flushes: whenever it waits, what it logged
accounts for all its refreshes. -/
theorem C97_worker (W : Wording) {S : Setup σ} {w : World σ} {s : Sys σ}
    (h : Reachable S (Sys.initial w) s) (hi : s.worker = .ret ()) :
    ∃ js recs, JobsLogged W js (actsOf .worker s.sh.trace) recs ∧ flushes js = handed s.sh.trace ∧
      Accounts W (effects (actsOf .worker s.sh.trace)) recs ∧
      NamesEach (failures (effects (actsOf .worker s.sh.trace))) recs := by
  obtain ⟨js, h1, h2⟩ := (working h).idle hi
  obtain ⟨recs, h3, h4⟩ := jobs_logged W h1
  exact ⟨js, recs, h3, h2, h4, Accounts.names h4⟩

/-- **C97** A request that refreshes nothing logs nothing, whether it fails or not. -/
theorem C97_silent (W : Wording) {S : Setup σ} {w : World σ} {s : Sys σ}
    (h : Reachable S (Sys.initial w) s) {i : Nat} {c : Call} {r : Resp} (ha : Answered s i c r)
    (hn : ∀ id t, Act.note id t ∉ actsOf (.client i) s.sh.trace) :
    Path (progLogged W S.cv c) (actsOf (.client i) s.sh.trace) (.ret (r, [])) := by
  obtain ⟨recs, h1, h2, -⟩ := C97_request W h ha
  have : ∀ acts rs, Accounts W acts rs → (∀ id t, Act.note id t ∉ acts) → rs = [] := by
    intro acts rs h
    induction h with
    | nil => exact fun _ => rfl
    | other _ _ ih => exact fun hm => ih fun id t hm' => hm id t (by simp [hm'])
    | good => exact fun hm => absurd (List.mem_cons_self) (hm _ _)
    | bad => exact fun hm => absurd (List.mem_cons_self) (hm _ _)
  cases this _ _ h2 fun id t hm => hn id t (List.mem_filter.1 hm).1
  exact h1

/-! ## Cases -/

/-- C97: a flush of the fans with a unit that does not answer. The client is told that it worked; the
log of the worker names the cache. -/
example : (Sys.execs deaf ([.arrive (.flush 1)] ++ steps 2 (.client 0) ++ steps 8 .worker ++
      steps 2 (.client 0)) (Sys.initial (World.initial () 7 []))).any
    (fun (s : Sys Unit) => s.worker.waits &&
      failures (effects (actsOf .worker s.sh.trace)) == [.fans] &&
      s.clients[0]?.any fun (c : Client) => match c.prog with
       | .ret (.flushed (.ok _)) => true
       | _ => false) = true := by
  decide +kernel

/-- C97: what the slow timer logs then, and with a unit that answers. -/
example : (((onTickLogged toyWording .slow).run deaf.line (World.initial () 600000000000 [])).1.map fun rs =>
      rs.map fun r => (r.level, r.msg)) =
      some [(.error, lit "FanProfilesCache.Update() - Updating fan profiles cache"),
        (.error, lit "BypassCache.Update() - Updating bypass cache")] ∧
    ((onTickLogged toyWording .slow).run demo.line (World.initial 0 600000000000 [])).1 = some [] := by
  decide +kernel

end Comfo.Props
