import Verif.Lemmas.Moment
import Verif.Props.Echo
import Verif.Props.Server
/-! Helper lemmas: the order of `SetFanSpeed` requests (C74). -/
namespace Comfo
open Spec Props

/-- Neither the fan lock nor a speed command. -/
def Act.calm : Act → Bool
  | .lock l | .unlock l | .rlock l | .runlock l => l != .fan
  | .wrote bs _ => bs.take 4 != [0x07, 0xF0, 0x00, 0x99]
  | _ => true

theorem take_frame (c : UInt8) (d : List UInt8) : (frame c d).take 4 = [0x07, 0xF0, 0x00, c] := by
  simp [frame, body]

theorem calm_ack (r : Nat × Option Err) : (Act.wrote ack r).calm = true := rfl

theorem calm_frame {c : UInt8} {d : List UInt8} (hc : c ≠ 0x99) (r : Nat × Option Err) :
    (Act.wrote (frame c d) r).calm = true := by
  simp [Act.calm, take_frame, hc]

theorem calm_query {c : UInt8} {d : List UInt8} {x : Bool} {acts : List Act}
    {r : Packet × Option Err} (hc : c ≠ 0x99) (h : QueryActs c d x acts r) :
    ∀ a ∈ acts, a.calm = true := by
  obtain ⟨evs, ht, rfl⟩ := h
  cases ht <;> simp [toAct, Act.calm, take_frame, hc, ack]

theorem calm_forced {id : CacheId} {acts : List Act} (h : ForcedActs id acts) :
    ∀ a ∈ acts, a.calm = true := by
  obtain ⟨t, ra, ⟨qa, q, e, hq, rfl⟩, rfl⟩ := h
  have h1 := calm_query (by cases id <;> decide) hq
  intro a ha
  simp only [List.mem_cons, List.mem_append, List.cons_append, List.not_mem_nil, or_false] at ha
  rcases ha with rfl | rfl | rfl | (ha | ha) | rfl <;> try rfl
  · exact h1 a ha
  · split at ha
    · simp at ha; subst ha; rfl
    · cases ha

theorem calm_poll {x y : UInt8} {n : Nat} {acts : List Act} {r : Option SrvErr}
    (h : PollActs x y n acts r) : ∀ a ∈ acts, a.calm = true := by
  induction h with
  | zero => simp
  | hit n u f g hu =>
    have := calm_forced hu
    intro a ha
    simp only [List.mem_append, List.mem_cons, List.not_mem_nil, or_false] at ha
    rcases ha with ha | rfl | rfl
    · exact this a ha
    · rfl
    · rfl
  | missIn n u rest res f hu _ _ ih =>
    have := calm_forced hu
    intro a ha
    simp only [List.mem_append, List.mem_cons] at ha
    rcases ha with ha | rfl | rfl | ha
    · exact this a ha
    · rfl
    · rfl
    · exact ih a ha
  | missOut n u rest res f g hu _ _ _ ih =>
    have := calm_forced hu
    intro a ha
    simp only [List.mem_append, List.mem_cons] at ha
    rcases ha with ha | rfl | rfl | rfl | ha
    · exact this a ha
    · rfl
    · rfl
    · rfl
    · exact ih a ha

/-- A refresh that has succeeded, up to the value being stored. -/
def Fetched (id : CacheId) (τ : Int) (w : CVal id) (acts : List Act) : Prop :=
  ∃ n q, q.command = requestCode id + 1 ∧ decode id q.data = some w ∧
    acts = [.note id τ, .lock .pm, .wrote (frame (requestCode id) []) (n, none), .got true (q, none),
      .wrote ack (2, none), .unlock .pm, .store id ⟨w, τ⟩]

theorem refresh_fetched {id : CacheId} {τ : Int} {ra : List Act} (h : RefreshActs id τ ra)
    (hv : ∃ v, .store id v ∈ ra) : ∃ w fa, Fetched id τ w fa ∧ ra = fa ++ [.unlock (.cache id)] := by
  obtain ⟨qa, q, e, hq, rfl⟩ := h
  obtain ⟨v, hv⟩ := hv
  have hno := query_no_store hq id v
  obtain ⟨evs, ht, rfl⟩ := hq
  match ho : outcome id q e with
  | none =>
    simp [ho] at hv hno
    obtain ⟨a, h1, h2⟩ := hv
    exact absurd h2 (hno a h1)
  | some w =>
    have he : e = none := by cases e <;> simp [outcome] at ho ⊢
    subst he
    have hd : decode id q.data = some w := ho
    generalize hres : (q, none) = res at ht
    cases ht with
    | complete n q' hc =>
      cases hres
      exact ⟨w, _, ⟨n, q, hc rfl, hd, rfl⟩, by simp [toAct]⟩
    | _ => cases hres

/-- The beginning of every `SetFanSpeed` request, and its answer. -/
theorem speed_head {abs : UInt32} {rel : Bool} {acts : List Act} {x : Rpc SpeedModified}
    (h : SpeedActs abs rel acts x) :
    ∃ (t : Int) (c : Entry FanProfiles) (rest : List Act),
      acts = [.now t, .lock .fan] ++ .load .profiles c :: rest ∧
      (∀ v, x = .ok v → v.originalSpeed = c.val.currentMode.toUInt32) ∧
      ((∃ arg, x = .err (.invalidArgument arg)) ↔ (modifySpeed c.val.currentMode abs rel).2 ≠ none) := by
  have key : ∀ {b m : UInt8} {o : Option Twirp}, modifySpeed b abs rel = (m, o) →
      ∀ e, o = some e → ∃ arg, e = .invalidArgument arg := by
    intro b m o hm e he
    exact (C39_modify_speed b abs rel).1 e (by rw [hm]; exact he)
  cases h with
  | rejected t c b e hm =>
    refine ⟨t, c, _, rfl, by simp, ?_⟩
    obtain ⟨arg, rfl⟩ := key hm e rfl
    simp [hm]
  | same t c stop hm =>
    exact ⟨t, c, _, rfl, (fun v h => by cases h; rfl), by simp [hm]⟩
  | setFailed t c m sa e hm => exact ⟨t, c, _, rfl, by simp, by simp [hm]⟩
  | noTarget t c m sa p e hm => exact ⟨t, c, _, rfl, by simp, by simp [hm]⟩
  | pollFailed t c m sa p x y pa e hm => exact ⟨t, c, _, rfl, by simp, by simp [hm]⟩
  | set t c m sa p x y pa u stop hm =>
    exact ⟨t, c, _, rfl, (fun v h => by cases h; rfl), by simp [hm]⟩

/-- A `SetFanSpeed` request that reports a modification. -/
theorem speed_shape {abs : UInt32} {rel : Bool} {acts : List Act} {a : SpeedModified}
    (h : SpeedActs abs rel acts (.ok a)) (hmod : a.modified = true) :
    ∃ (t : Int) (c : Entry FanProfiles) (m : UInt8) (n : Nat) (e : Bool) (q : Packet) (B : List Act),
      acts = [.now t, .lock .fan, .load .profiles c, .lock .pm] ++
        .wrote (frame 0x99 [m]) (n, none) :: .got e (q, none) :: (B ++ [.unlock .fan]) ∧
      (∀ a ∈ B, a.calm = true) ∧ a.originalSpeed = c.val.currentMode.toUInt32 ∧
      a.targetSpeed = m.toUInt32 ∧ modifySpeed c.val.currentMode abs rel = (m, none) ∧
      ((∃ e, .store .profiles e ∈ acts) → ∃ b1 τ w fa b2, B = b1 ++ fa ++ b2 ∧
        Fetched .profiles τ w fa) := by
  generalize hr : Rpc.ok a = r at h
  cases h with
  | set t c m sa p x y pa u stop h1 h2 hs h4 hp hu =>
    cases hr
    rcases hs with ⟨bin, q, hb, evs, ht, rfl⟩ | ⟨-, bin, e', -, he⟩
    · simp only [SetRequest.marshalBinary] at hb
      split at hb
      · cases hb
      cases hb
      generalize hres : (q, none) = res at ht
      cases ht with
      | complete n q' hc =>
        cases hres
        have c1 := calm_poll hp
        have c2 := calm_forced hu
        refine ⟨t, c, m, n, false, q, .wrote ack (2, none) :: .unlock .pm ::
          .rlock (.cache .profiles) :: .load .profiles p :: .runlock (.cache .profiles) ::
          (pa ++ u ++ [.now stop]), by simp [toAct, SetRequest.requestType], ?_, rfl, rfl, h1, ?_⟩
        · intro a ha
          simp only [List.mem_cons, List.mem_append, List.not_mem_nil, or_false] at ha
          rcases ha with rfl | rfl | rfl | rfl | rfl | (ha | ha) | rfl <;> try rfl
          · exact c1 a ha
          · exact c2 a ha
        · rintro ⟨v, hv⟩
          have hn := poll_no_store hp v
          obtain ⟨τ, ra, hra, rfl⟩ := hu
          have : Act.store .profiles v ∈ ra := by simpa [toAct, hn] using hv
          obtain ⟨w, fa, hfa, rfl⟩ := refresh_fetched hra ⟨v, this⟩
          exact ⟨.wrote ack (2, none) :: .unlock .pm ::
            .rlock (.cache .profiles) :: .load .profiles p :: .runlock (.cache .profiles) ::
            (pa ++ [.lock (.cache .profiles), .now τ]), τ, w, fa, [.unlock (.cache .profiles), .now stop],
            by simp, hfa⟩
      | _ => cases hres
    · cases he
  | same => cases hr; cases hmod
  | _ => cases hr

/-- One's own refresh counts as soon as it is confirmed. -/
theorem ack_success {id : CacheId} {t : Tid} {rest : List (Tid × Act)} {as bs fa : List Act} {τ : Int}
    {w : CVal id} (hf : Fetched id τ w (fa ++ [.store id ⟨w, τ⟩])) (h : actsOf t rest = as ++ fa ++ bs)
    (c : Tid → Cur) : successes id c rest ≠ none := by
  obtain ⟨n, q, hc, hd, hfa⟩ := hf
  have hfa' : fa = [.note id τ, .lock .pm, .wrote (frame (requestCode id) []) (n, none),
      .got true (q, none), .wrote ack (2, none), .unlock .pm] :=
    (List.append_inj' (s₁ := fa) (t₁ := [.store id ⟨w, τ⟩]) (s₂ := [.note id τ, .lock .pm,
      .wrote (frame (requestCode id) []) (n, none), .got true (q, none), .wrote ack (2, none),
      .unlock .pm]) (t₂ := [.store id ⟨w, τ⟩]) hfa rfl).1
  subst hfa'
  have e1 : actsOf t rest = (as ++ [.note id τ, .lock .pm,
      .wrote (frame (requestCode id) []) (n, none), .got true (q, none)]) ++
      .wrote ack (2, none) :: ([.unlock .pm] ++ bs) := by
    rw [h]; simp
  obtain ⟨r1, r2, rfl, h1, -⟩ := actsOf_split e1
  unfold successes
  rw [List.foldl_append, List.foldl_cons]
  refine fst_stays _ _ ?_
  have hcur := cur_own id t r1 (none, c)
  rw [h1, List.filterMap_append, List.foldl_append] at hcur
  simp only [List.filterMap_cons, evOf, List.filterMap_nil, List.foldl_cons, List.foldl_nil, scanEv,
    if_true, hc] at hcur
  rw [(scanAct_at _ (ev := .wrote ack (2, none)) rfl).1, hcur]
  simp [scanEv, hd]

/-! ## Positions in the trace -/

/-- Only one element has the property. -/
theorem only_once {α : Type} {p : α → Bool} {as bs as' bs' : List α} {x x' : α}
    (h : as ++ x :: bs = as' ++ x' :: bs') (h1 : ∀ a ∈ as, p a = true) (h2 : ∀ a ∈ bs, p a = true)
    (hx : p x = false) (hx' : p x' = false) : as = as' ∧ x = x' ∧ bs = bs' := by
  induction as generalizing as' with
  | nil =>
    cases as' with
    | nil => simpa using h
    | cons y ys =>
      simp only [List.nil_append, List.cons_append, List.cons.injEq] at h
      have := h2 x' (by rw [h.2]; simp)
      rw [hx'] at this; cases this
  | cons a as ih =>
    cases as' with
    | nil =>
      simp only [List.nil_append, List.cons_append, List.cons.injEq] at h
      have := h1 a (by simp)
      rw [h.1, hx'] at this; cases this
    | cons y ys =>
      simp only [List.cons_append, List.cons.injEq] at h
      obtain ⟨e1, e2, e3⟩ := ih h.2 fun a ha => h1 a (List.mem_cons_of_mem _ ha)
      exact ⟨by rw [h.1, e1], e2, e3⟩

theorem actsOf_cons_self (t : Tid) (a : Act) (tr : List (Tid × Act)) :
    actsOf t ((t, a) :: tr) = a :: actsOf t tr := by simp [actsOf]

theorem actsOf_cons_other {t u : Tid} (a : Act) (tr : List (Tid × Act)) (h : u ≠ t) :
    actsOf t ((u, a) :: tr) = actsOf t tr := by simp [actsOf, h]

theorem mem_actsOf {t : Tid} {a : Act} {tr : List (Tid × Act)} :
    a ∈ actsOf t tr ↔ (t, a) ∈ tr := by
  simp only [actsOf, List.mem_filterMap]
  constructor
  · rintro ⟨⟨u, b⟩, h1, h2⟩
    split at h2
    · rename_i hu
      simp only [Option.some.injEq] at h2
      cases h2
      have : u = t := hu
      subst this; exact h1
    · cases h2
  · intro h
    exact ⟨_, h, by simp⟩

/-- A goroutine that took the fan lock and did nothing with it since is still inside. -/
theorem inside_calm {t : Tid} {tr : List (Tid × Act)} {as bs : List Act}
    (h : actsOf t tr = as ++ .lock .fan :: bs)
    (hb : ∀ a ∈ bs, ∀ l, a = .unlock l ∨ a = .runlock l → l ≠ .fan) :
    inside t .fan tr = true := by
  unfold inside
  rw [inside_own, h, List.map_append, List.map_cons, List.foldl_append, List.foldl_cons]
  have h1 : ∀ b, holdStep t .fan b (t, .lock .fan) = true := by simp [holdStep]
  rw [h1]
  clear h
  induction bs with
  | nil => rfl
  | cons a bs ih =>
    rw [List.map_cons, List.foldl_cons]
    have : holdStep t .fan true (t, a) = true := by
      have := hb a (by simp)
      cases a <;> simp [holdStep] at this ⊢
      · exact this
      · exact this
    rw [this]
    exact ih fun a ha => hb a (List.mem_cons_of_mem _ ha)

end Comfo
