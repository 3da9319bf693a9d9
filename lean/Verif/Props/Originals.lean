import Verif.Props.Steps
/-!
# What a set request reports as the original value (C75)
-/
namespace Comfo.Props
open Spec Comfo

/-- Not the command `c`. -/
def _root_.Comfo.Act.quiet (c : UInt8) : Act → Bool
  | .wrote bs _ => bs.take 4 != [0x07, 0xF0, 0x00, c]
  | _ => true

theorem quiet_query {c c' : UInt8} {d : List UInt8} {x : Bool} {acts : List Act}
    {r : Packet × Option Err} (hc : c ≠ c') (h : QueryActs c d x acts r) :
    ∀ a ∈ acts, a.quiet c' = true := by
  obtain ⟨evs, ht, rfl⟩ := h
  cases ht <;> simp [toAct, Act.quiet, take_frame, hc, ack]

theorem quiet_forced {id : CacheId} {c : UInt8} {acts : List Act} (hc : requestCode id ≠ c)
    (h : ForcedActs id acts) : ∀ a ∈ acts, a.quiet c = true := by
  obtain ⟨t, ra, ⟨qa, q, e, hq, rfl⟩, rfl⟩ := h
  have h1 := quiet_query hc hq
  intro a ha
  simp only [List.mem_cons, List.mem_append, List.cons_append, List.not_mem_nil, or_false] at ha
  rcases ha with rfl | rfl | rfl | (ha | ha) | rfl <;> try rfl
  · exact h1 a ha
  · split at ha
    · simp at ha; subst ha; rfl
    · cases ha

/-- What a successful `SetFanProfile` request starts with, and what it reports. -/
theorem profile_head {m x : UInt32} {acts : List Act} {a : SpeedModified}
    (h : ProfileRpcActs m x acts (.ok a)) :
    ∃ (t : Int) (c : Entry FanProfiles) (rest : List Act),
      acts = [.now t, .lock .fan] ++ .load .profiles c :: rest ∧
      (∀ e, .load .profiles e ∉ rest) ∧ a.targetSpeed = x ∧
      a.originalSpeed = (inOf c.val (m.toUInt8 - 1)).toUInt32 ∧
      (a.modified = true ↔ inOf c.val (m.toUInt8 - 1) ≠ x.toUInt8) := by
  have noq : ∀ {c d x acts r}, QueryActs c d x acts r → ∀ e, Act.load .profiles e ∉ acts := by
    rintro c d x acts r ⟨evs, ht, rfl⟩ e
    cases ht <;> simp [toAct]
  generalize hr : Rpc.ok a = r at h
  cases h with
  | same t c stop h1 h2 h3 => cases hr; exact ⟨t, c, _, rfl, by simp, rfl, rfl, by simp [h3]⟩
  | set t c sa u stop h1 h2 h3 hs hu =>
    cases hr
    refine ⟨t, c, _, rfl, ?_, rfl, rfl, by simp [h3]⟩
    obtain ⟨τ, ra, ⟨qa, q, e, hq, rfl⟩, rfl⟩ := hu
    intro e' hm
    cases hs with
    | set fa sb v e'' hm' hx hf hs =>
      obtain ⟨q', e₁, hf, -⟩ := hf
      have n1 := noq hf e'
      have n2 := noq hq e'
      rcases hs with ⟨bin, q₂, hb, hs⟩ | ⟨-, bin, e₂, -, he⟩
      · have n3 := noq hs e'
        simp only [List.mem_append, List.mem_cons, n1, n2, n3, reduceCtorEq, List.not_mem_nil, or_false,
          false_or] at hm
        split at hm <;> simp at hm
      · cases he
  | _ => cases hr

/-- A `SetFanProfile` request that reports a modification. -/
theorem profile_shape {m x : UInt32} {acts : List Act} {a : SpeedModified}
    (h : ProfileRpcActs m x acts (.ok a)) (hmod : a.modified = true) :
    ∃ (t : Int) (H B : List Act) (d : List UInt8) (n : Nat) (e : Bool) (q : Packet),
      acts = ([.now t] ++ .lock .fan :: H) ++
        .wrote (frame 0xCF d) (n, none) :: .got e (q, none) :: (B ++ [.unlock .fan]) ∧
      NoLeave H ∧ NoLeave B ∧ (∀ a ∈ H, a.quiet 0xCF = true) ∧ (∀ a ∈ B, a.quiet 0xCF = true) ∧
      (∀ k ∈ entries (m.toUInt8.toNat - 1), 1 ≤ m.toUInt8.toNat → d[k]? = some x.toUInt8) ∧
      ((∃ e, .store .profiles e ∈ acts) → ∃ b1 τ w fa b2, B = b1 ++ fa ++ b2 ∧
        Fetched .profiles τ w fa) := by
  have hb := (setProfile_sent h)
  generalize hr : Rpc.ok a = r at h
  cases h with
  | set t c sa u stop h1 h2 h3 hs hu =>
    cases hr
    have hm1 : (m.toUInt8 - 1).toNat = m.toUInt8.toNat - 1 := by
      rw [UInt8.toNat_sub_of_le]
      · rfl
      · rw [UInt8.le_iff_toNat_le]; exact hb.1
    cases hs with
    | set fa sb v e' hm hx hf hs =>
      obtain ⟨q', e', hq, -⟩ := hf
      rcases hs with ⟨bin, q, hbin, evs, ht, rfl⟩ | ⟨-, bin, e', -, he⟩
      · generalize hres : (q, none) = res at ht
        cases ht with
        | complete n q' hc =>
          cases hres
          rw [patch_bytes _ _ (by rw [hm1]; omega)] at hbin
          cases hbin
          have c1 := calm_query (by decide) hq
          have c2 := calm_forced hu
          have q1 := quiet_query (c' := 0xCF) (by decide) hq
          have q2 := quiet_forced (c := 0xCF) (by decide) hu
          refine ⟨t, .load .profiles c :: .lock .am :: (fa ++ [.lock .pm]),
            .wrote ack (2, none) :: .unlock .pm :: .unlock .am :: (u ++ [.now stop]),
            replaceMode (m.toUInt8 - 1).toNat x.toUInt8 (percentages v), n, false, q,
            by simp [toAct, SetRequest.requestType], ?_, ?_, ?_, ?_, ?_, ?_⟩
          · refine calm_noLeave ?_
            intro a ha
            simp only [List.mem_cons, List.mem_append, List.not_mem_nil, or_false] at ha
            rcases ha with rfl | rfl | ha | rfl <;> try rfl
            exact c1 a ha
          · refine calm_noLeave ?_
            intro a ha
            simp only [List.mem_cons, List.mem_append, List.not_mem_nil, or_false] at ha
            rcases ha with rfl | rfl | rfl | ha | rfl <;> try rfl
            exact c2 a ha
          · intro a ha
            simp only [List.mem_cons, List.mem_append, List.not_mem_nil, or_false] at ha
            rcases ha with rfl | rfl | ha | rfl <;> try rfl
            exact q1 a ha
          · intro a ha
            simp only [List.mem_cons, List.mem_append, List.not_mem_nil, or_false] at ha
            rcases ha with rfl | rfl | rfl | ha | rfl <;> try rfl
            exact q2 a ha
          · intro k hk _
            rw [hm1]
            exact replaceMode_same rfl k hk
          · rintro ⟨v', hv⟩
            have hn := query_no_store hq .profiles v'
            obtain ⟨τ, ra, hra, rfl⟩ := hu
            have : Act.store .profiles v' ∈ ra := by simpa [toAct, hn] using hv
            obtain ⟨w, fa', hfa, rfl⟩ := refresh_fetched hra ⟨v', this⟩
            exact ⟨.wrote ack (2, none) :: .unlock .pm :: .unlock .am ::
              [.lock (.cache .profiles), .now τ], τ, w, fa', [.unlock (.cache .profiles), .now stop],
              by simp, hfa⟩
        | _ => cases hres
      · cases he
  | same => cases hr; cases hmod
  | _ => cases hr

/-! ## C75 -/

/-- **C75** (partial) `SetFanProfile` request `i` has changed the percentages and read the unit again;
`d` is what it has sent. Request `j` looks at the cached percentages later, and nobody has sent
another fan-profile command in between. Then `j` reports as the original percentage of its mode the one
in `d`, and it reports a modification exactly if its target is another one. If both are about the same
mode, this percentage is the target of `i`. This is for any interleaving of the two requests. Missing:
a unit that does not answer when it is read again (`C75_violated_failed`). -/
theorem C75_profile_partial {S : Setup σ} (U : ReportUnit 0xCF .profiles ShowsPct S.line S.env)
    {w : World σ} {s : Sys σ} (h : Reachable S (Sys.initial w) s) {i j : Nat} {m x m' y : UInt32}
    {a b : SpeedModified} (ha : Answered s i (.setProfile m x) (.speed (.ok a)))
    (hmod : a.modified = true) (hst : ∃ e, (Tid.client i, Act.store .profiles e) ∈ s.sh.trace)
    (hb : Answered s j (.setProfile m' y) (.speed (.ok b))) (hij : j ≠ i)
    {d : List UInt8} {r : Nat × Option Err} {pre mid post : List (Tid × Act)} {c : Entry FanProfiles}
    (htr : s.sh.trace =
      pre ++ (.client i, .wrote (frame 0xCF d) r) :: (mid ++ (.client j, .load .profiles c) :: post))
    (hn : NoCommand 0xCF mid) :
    (∃ o : UInt8, d[([3, 4, 5, 7] : List Nat).getD (m'.toNat % 256 - 1) 0]? = some o ∧
      b.originalSpeed = o.toUInt32 ∧ (b.modified = true ↔ o.toNat ≠ y.toNat % 256)) ∧
    (m'.toNat % 256 = m.toNat % 256 → b.originalSpeed.toNat = x.toNat % 256) := by
  have hji : Tid.client j ≠ Tid.client i := by simpa using hij
  have hpb := profile_answered h hb
  have hpa := profile_answered h ha
  obtain ⟨b1', b2', -, -, -, -⟩ := setProfile_sent hpb
  obtain ⟨a1', a2', -, -, -, -⟩ := setProfile_sent hpa
  -- request `j`
  obtain ⟨t, c', rest, h1, hno, -, ho, hmodb⟩ := profile_head hpb
  have h4 := h1
  rw [htr, show pre ++ (Tid.client i, Act.wrote (frame 0xCF d) r) :: (mid ++ (.client j, .load .profiles c) :: post) =
    (pre ++ (.client i, .wrote (frame 0xCF d) r) :: mid) ++ (.client j, .load .profiles c) :: post by simp,
    actsOf_append, actsOf_cons_self] at h4
  have hpos : actsOf (.client j) (pre ++ (.client i, .wrote (frame 0xCF d) r) :: mid) = [.now t, .lock .fan] ∧
      c = c' := by
    rcases two_moments h4 with ⟨e1, e2, -⟩ | ⟨m, e1, -⟩ | ⟨m, e1, e2⟩
    · cases e2
      exact ⟨e1, rfl⟩
    · exfalso
      have : Act.load .profiles c ∈ [Act.now t, Act.lock .fan] := by rw [e1]; simp
      simp at this
    · exact absurd (by rw [e2]; simp) (hno c)
  obtain ⟨hpos, rfl⟩ := hpos
  -- request `i`
  obtain ⟨t₀, H, B, d', n, e, q, h5, hH, hB, hqH, hqB, hd, hfe⟩ := profile_shape hpa hmod
  have h6 := h5
  rw [htr, actsOf_append, actsOf_cons_self] at h6
  obtain ⟨e1, e2, e3⟩ := only_once (p := Act.quiet 0xCF) h6.symm
    (by
      intro a ha
      simp only [List.mem_append, List.mem_cons, List.not_mem_nil, or_false] at ha
      rcases ha with rfl | rfl | ha <;> try rfl
      exact hqH a ha)
    (by
      intro a ha
      simp only [List.mem_append, List.mem_cons, List.not_mem_nil, or_false] at ha
      rcases ha with rfl | ha | rfl <;> try rfl
      exact hqB a ha)
    (by simp [Act.quiet, take_frame]) (by simp [Act.quiet, take_frame])
  have hdd : d' = d := by
    simp only [Act.wrote.injEq] at e2
    exact frame_inj e2.1
  subst hdd
  obtain ⟨v₁, hv₁⟩ := hst
  obtain ⟨b1, τ', v, fa, b2, rfl, hfa⟩ := hfe ⟨v₁, mem_actsOf.2 hv₁⟩
  have hsplit := fan_next h hij htr hpos (as := [.now t₀]) (bs := H)
    (B := .got e (q, none) :: (b1 ++ fa ++ b2)) e1.symm hH (by simp)
    (by rw [← e3]; rfl) (by
      intro a ha l hl
      simp only [List.mem_cons] at ha
      rcases ha with rfl | ha
      · rcases hl with h | h <;> cases h
      · exact hB a ha l hl)
  have hshow := load_after (by decide) U h (e := e) (q := q) (b1 := b1) (fa := fa)
    (b2 := b2 ++ [.unlock .fan]) htr (by rw [hsplit]; simp) hfa hn
  unfold ShowsPct at hshow
  have hin : ∀ k : UInt8, 1 ≤ k.toNat → k.toNat ≤ 4 →
      d'[([3, 4, 5, 7] : List Nat).getD (k.toNat - 1) 0]? = some (inOf c.val (k - 1)) := by
    intro k k1 k2
    rw [← hshow]
    have : k = 1 ∨ k = 2 ∨ k = 3 ∨ k = 4 := by
      have : k.toNat = 1 ∨ k.toNat = 2 ∨ k.toNat = 3 ∨ k.toNat = 4 := by omega
      rcases this with h | h | h | h
      · exact .inl (UInt8.toNat.inj h)
      · exact .inr (.inl (UInt8.toNat.inj h))
      · exact .inr (.inr (.inl (UInt8.toNat.inj h)))
      · exact .inr (.inr (.inr (UInt8.toNat.inj h)))
    rcases this with rfl | rfl | rfl | rfl <;> rfl
  have em : ∀ z : UInt32, z.toUInt8.toNat = z.toNat % 256 := by intro z; simp
  have hj := hin m'.toUInt8 b1' b2'
  refine ⟨⟨inOf c.val (m'.toUInt8 - 1), by rw [← em]; exact hj, ho, ?_⟩, fun hmm => ?_⟩
  · rw [hmodb, ← em, ne_eq, ne_eq, UInt8.toNat_inj]
  · rw [← em, ← em] at hmm
    have hmm : m'.toUInt8 = m.toUInt8 := UInt8.toNat_inj.1 hmm
    rw [hmm] at hj ho
    have hk : ([3, 4, 5, 7] : List Nat).getD (m.toUInt8.toNat - 1) 0 ∈ entries (m.toUInt8.toNat - 1) := by
      have : m.toUInt8.toNat - 1 = 0 ∨ m.toUInt8.toNat - 1 = 1 ∨ m.toUInt8.toNat - 1 = 2 ∨
        m.toUInt8.toNat - 1 = 3 := by omega
      rcases this with h | h | h | h <;> rw [h] <;> decide
    rw [hd _ hk a1', Option.some.injEq] at hj
    rw [ho, ← hj, ← em]
    simp

/-- **C75** (partial) `SetComfortTemp(x)` has changed the comfort temperature and read the unit again.
A `SetComfortTemp(y)` that arrives after it was answered reports `x` as the original temperature,
and reports a modification exactly if `y` is another one, unless somebody has sent another command in
between. Missing: requests at the same time (`C75_violated`), and a unit that does not answer when
it is read again (`C75_violated_failed`). -/
theorem C75_comfort_partial {S : Setup σ} (U : ReportUnit 0xD3 .temps ShowsComfort S.line S.env)
    {w : World σ} {s₁ s₂ : Sys σ} (h₁ : Reachable S (Sys.initial w) s₁) {i : Nat} {x : UInt32}
    {a : ComfortModified} (ha : Answered s₁ i (.setComfort x) (.comfort (.ok a)))
    (hmod : a.modified = true) (hst : ∃ e, (Tid.client i, Act.store .temps e) ∈ s₁.sh.trace)
    (h₂ : Reachable S s₁ s₂) {j : Nat} (hj : s₁.clients.length ≤ j) {y : UInt32} {b : ComfortModified}
    (hb : Answered s₂ j (.setComfort y) (.comfort (.ok b))) :
    ∃ d r pre mid post c, s₂.sh.trace = pre ++ (.client i, .wrote (frame 0xD3 d) r) ::
        (mid ++ (.client j, .load .temps c) :: post) ∧
      (NoCommand 0xD3 mid → b.originalTemp = x ∧ (b.modified = true ↔ y ≠ x)) := by
  have hcb := comfort_answered (reach_trans h₁ h₂) hb
  have hca := comfort_answered h₁ ha
  obtain ⟨v₁, hv₁⟩ := hst
  obtain ⟨b', hb', as, r, e, q, b1, τ, ra, b2, hacts, hra, hsto⟩ :=
    setComfort_read hca hmod ⟨v₁, mem_actsOf.2 hv₁⟩
  obtain ⟨v, fa, hfa, rfl⟩ := refresh_fetched hra hsto
  obtain ⟨pre, rest₁, htr, -, h5⟩ := actsOf_split hacts
  -- request `j`
  obtain ⟨t, c, rest, h1, ho, hm⟩ : ∃ (t : Int) (c : Entry Temps) (rest : List Act),
      actsOf (.client j) s₂.sh.trace = [.now t] ++ .load .temps c :: rest ∧
      b.originalTemp = S.cv.u32 c.val.comfort ∧
      (b.modified = true ↔ S.cv.u8 c.val.comfort ≠ y.toUInt8) ∧ ¬ y > 255 := by
    generalize actsOf (.client j) s₂.sh.trace = acts at hcb
    generalize hr : Rpc.ok b = x at hcb
    cases hcb with
    | same t c stop hy h2 => cases hr; exact ⟨t, c, _, rfl, rfl, by simp [h2], hy⟩
    | set t c sa u stop hy h2 => cases hr; exact ⟨t, c, _, rfl, rfl, by simp [h2], hy⟩
    | _ => cases hr
  obtain ⟨g₁, hi₁⟩ := inv3 h₁
  obtain ⟨ext, hext⟩ := trace_grows h₂
  rw [hext, actsOf_append, hi₁.hist.fresh j hj, List.nil_append] at h1
  obtain ⟨p, post, h3, h4, -⟩ := actsOf_split h1
  have htr₂ : s₂.sh.trace = pre ++ (.client i, .wrote (frame 0xD3 [b']) r) ::
      ((rest₁ ++ p) ++ (.client j, .load .temps c) :: post) := by
    rw [hext, htr, h3]; simp
  refine ⟨[b'], r, pre, rest₁ ++ p, post, c, htr₂, fun hn => ?_⟩
  obtain ⟨b'', hb1, hb2⟩ := load_after (by decide) U (reach_trans h₁ h₂) (e := e) (q := q) (b1 := b1)
    (fa := fa) (b2 := [.unlock (.cache .temps)] ++ b2 ++ actsOf (.client i) p) htr₂
    (by rw [actsOf_append, h5]; simp) hfa hn
  cases hb1
  have hlt := b'.toNat_lt
  have hval : c.val.comfort = (x.toNat : Int) := by
    rw [hb2, hb']; omega
  have hx : x.toNat ≤ 255 := by omega
  have h32 := S.cv.u32_ok c.val.comfort (by omega) (by omega)
  have h8 := S.cv.u8_ok c.val.comfort (by omega) (by omega)
  rw [hval] at h32 h8
  refine ⟨?_, ?_⟩
  · rw [ho, ← UInt32.toNat_inj, hval]; omega
  · have hy : y.toNat ≤ 255 := by
      have := UInt32.not_lt.mp hm.2
      simpa [UInt32.le_iff_toNat_le] using this
    have hy8 : y.toUInt8.toNat = y.toNat := by simp; omega
    rw [hm.1, ne_eq, ne_eq, ← UInt8.toNat_inj, ← UInt32.toNat_inj, hval, hy8]
    omega

/-! ## The examples and the violations -/

/-- The hypotheses are met: two `SetFanProfile` requests for the same mode at the same time. The one
that arrived second is first; the other one reports its target as the original percentage. -/
example : ∃ s, Reachable device (Sys.initial lopsided) s ∧
    (commandsB 0xCF s.sh.trace == 2 && storedByB 1 s.sh.trace &&
      match s.clients.map Client.prog with
      | [.ret (.speed (.ok a)), .ret (.speed (.ok b))] =>
        b.modified && b.originalSpeed == 50 && b.targetSpeed == 40 &&
          a.modified && a.originalSpeed == 40 && a.targetSpeed == 60
      | _ => false) = true := by
  refine exec_witness _ ([.arrive (.setProfile 3 60), .arrive (.setProfile 3 40)] ++
    steps 1 (.client 0) ++ steps 27 (.client 1) ++ steps 26 (.client 0)) (fun _ _ => trivial) _ ?_
  decide +kernel

/-- The hypotheses are met: `SetComfortTemp(25)`, then `SetComfortTemp(23)`, with a `SetFanSpeed` on the
way. -/
example : ∃ s₁ s₂, Reachable vent (Sys.initial (ventStart 3)) s₁ ∧
    (storedB .temps s₁.sh.trace && s₁.clients.length == 2 && match s₁.clients.map Client.prog with
      | [.ret (.comfort (.ok a)), _] => a.modified
      | _ => false) = true ∧
    Reachable vent s₁ s₂ ∧
    (commandsB 0xD3 s₂.sh.trace == 2 && match s₂.clients.map Client.prog with
      | [_, _, .ret (.comfort (.ok b))] => b.modified && b.originalTemp == 25 && b.targetTemp == 23
      | _ => false) = true := by
  refine exec_witness2 _ ([.arrive (.setComfort 25), .arrive (.setSpeed 2 false)] ++
    steps 3 (.client 0) ++ steps 3 (.client 1) ++ steps 17 (.client 0))
    (steps 5 (.client 1) ++ [.arrive (.setComfort 23)] ++ steps 20 (.client 2)) (fun _ => trivial) _ _ ?_
  decide +kernel

/-- **C75** (violated) Two `SetComfortTemp(25)` at the same time, and nothing fails. Both report that
they have changed the temperature from 21 °C to 25 °C, and both have sent the command: the cached
temperature is looked at before the lock is taken. No order of the two requests, one after the
other, has these answers. -/
theorem C75_violated : ∃ s a b, Reachable vent (Sys.initial (ventStart 3)) s ∧
    Answered s 0 (.setComfort 25) (.comfort (.ok a)) ∧
    Answered s 1 (.setComfort 25) (.comfort (.ok b)) ∧
    a.modified = true ∧ b.modified = true ∧ a.originalTemp = 21 ∧ b.originalTemp = 21 ∧
    a.targetTemp = 25 ∧ b.targetTemp = 25 ∧ commandsB 0xD3 s.sh.trace = 2 := by
  have h1 := execs_sound (S := vent) (cmds := [.arrive (.setComfort 25), .arrive (.setComfort 25)] ++
    steps 2 (.client 0) ++ steps 2 (.client 1) ++ steps 18 (.client 0) ++ steps 18 (.client 1))
    (fun _ _ => trivial) (.start (s₀ := Sys.initial (ventStart 3))) rfl
  exact ⟨_, _, _, h1, rfl, rfl, rfl, rfl, rfl, rfl, rfl, rfl, rfl⟩

/-- **C75** (violated) One request after the other: the unit carries `SetComfortTemp(25)` out and
confirms it, but does not answer when it is read again. Then `SetComfortTemp(21)` reports that the
temperature was 21 °C already and sends nothing; the unit stays at 25 °C. -/
theorem C75_violated_failed : ∃ s a b, Reachable vent (Sys.initial (ventStart 3)) s ∧
    Answered s 0 (.setComfort 25) (.comfort (.ok a)) ∧ a.modified = true ∧ a.targetTemp = 25 ∧
    Answered s 1 (.setComfort 21) (.comfort (.ok b)) ∧ b.modified = false ∧ b.originalTemp = 21 ∧
    b.targetTemp = 21 ∧ commandsB 0xD3 s.sh.trace = 1 ∧
    s.sh.world.line.comfort.toNat = (25 + 20) * 2 := by
  have h1 := execs_sound (S := vent) (cmds := [.arrive (.setComfort 25)] ++ steps 8 (.client 0))
    (fun _ _ => trivial) (.start (s₀ := Sys.initial (ventStart 3))) rfl
  have h2 := h1.step (.environment
    { speed := 3, comfort := 90, mute := true, last := frame 0xD3 [90], took := true } 5
    ⟨false, true, rfl⟩)
  have h3 := execs_sound (S := vent) (cmds := steps 10 (.client 0)) (fun _ _ => trivial) h2 rfl
  have h4 := h3.step (.environment
    { speed := 3, comfort := 90, mute := false, last := frame 0xD1 [], took := false } 5
    ⟨false, false, rfl⟩)
  have h5 := execs_sound (S := vent) (cmds := [.arrive (.setComfort 21)] ++ steps 3 (.client 1))
    (fun _ _ => trivial) h4 rfl
  exact ⟨_, _, _, h5, rfl, rfl, rfl, rfl, rfl, rfl, rfl, rfl, rfl⟩

end Comfo.Props
