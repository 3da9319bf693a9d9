import Verif.Lemmas.Echo
import Verif.Lemmas.Post
import Verif.Props.Setting
/-!
# What a successful request to change a setting means for the unit and for later requests: C65, C66

Stated for every unit that works as `Spec.SettingUnit` and `Spec.ReportUnit` say, every number of
requests of every kind, and every interleaving.
-/
namespace Comfo.Props
open Spec
open scoped List

/-! ## What the requests do -/

theorem setActs_sent {inp : SetRequest} {acts : List Act} (h : SetActs inp acts none) :
    ∃ bin as r e q bs, inp.marshalBinary = (bin, none) ∧
      acts = as ++ .wrote (frame inp.requestType bin) r :: .got e (q, none) :: bs ∧
      ∀ id v, .store id v ∉ acts := by
  rcases h with ⟨bin, q, hb, evs, ht, rfl⟩ | ⟨-, bin, e', -, he⟩
  · generalize hr : (q, none) = res at ht
    cases ht with
    | complete n q' h => exact ⟨bin, [.lock .pm], _, _, _, _, hb, rfl, by simp [toAct]⟩
    | _ => cases hr
  · cases he

/-- The command was written, the next action was to receive the answer, and later a refresh of cache
`id` succeeded. -/
def SentRead (id : CacheId) (bs : List UInt8) (acts : List Act) : Prop :=
  ∃ as r e q b1 t ra b2, acts = as ++ .wrote bs r :: .got e (q, none) :: (b1 ++ ra ++ b2) ∧
    RefreshActs id t ra ∧ ∃ v, .store id v ∈ ra

theorem SentRead.sent {id : CacheId} {bs : List UInt8} {acts : List Act} (h : SentRead id bs acts) :
    Sent bs acts := by
  obtain ⟨as, r, e, q, b1, t, ra, b2, rfl, -⟩ := h
  exact ⟨_, _, _, _, _, rfl⟩

theorem query_no_store {cmd : UInt8} {data : List UInt8} {expect : Bool} {acts : List Act}
    {r : Packet × Option Err} (h : QueryActs cmd data expect acts r) (id : CacheId)
    (v : Entry (CVal id)) : .store id v ∉ acts := by
  obtain ⟨evs, ht, rfl⟩ := h
  cases ht <;> simp [toAct]

theorem refresh_store {id id' : CacheId} {t : Int} {ra : List Act} (h : RefreshActs id t ra)
    {v : Entry (CVal id')} (hv : .store id' v ∈ ra) : id' = id := by
  obtain ⟨qa, q, e, hq, rfl⟩ := h
  have := query_no_store hq id' v
  cases ho : outcome id q e with
  | none => simp [ho, this] at hv
  | some w =>
    simp only [ho, List.cons_append, List.mem_cons, List.mem_append, reduceCtorEq, List.not_mem_nil,
      this, false_or, or_false, Act.store.injEq] at hv
    exact hv.1

theorem poll_no_store {a b : UInt8} {n : Nat} {pa : List Act} {res : Option SrvErr}
    (h : PollActs a b n pa res) (v : Entry (CVal .profiles)) : .store .profiles v ∉ pa := by
  have key : ∀ {u}, ForcedActs .fans u → Act.store .profiles v ∉ u := by
    rintro u ⟨t, ra, hr, rfl⟩ hm
    simp only [List.mem_cons, reduceCtorEq, false_or] at hm
    exact absurd (refresh_store hr hm) (by decide)
  induction h with
  | zero => simp
  | hit n u f g hu => simp [key hu]
  | missIn n u rest res f hu _ _ ih => simp [key hu, ih]
  | missOut n u rest res f g hu _ _ _ ih => simp [key hu, ih]

theorem post_resp {α : Type} {p : Prog α} {f : α → Resp} {P : List Act → α → Prop} (h : p.Post P) :
    (p.map f).Post fun as r => ∃ a, r = f a ∧ P as a :=
  Prog.Post.map (h.mono fun _ a h => ⟨a, rfl, h⟩)

/-- A `SetFanProfile` request that reports success. -/
theorem setProfile_sent {m x : UInt32} {acts : List Act} {a : SpeedModified}
    (h : ProfileRpcActs m x acts (.ok a)) :
    1 ≤ m.toUInt8.toNat ∧ m.toUInt8.toNat ≤ 4 ∧ 15 ≤ x.toUInt8.toNat ∧ x.toUInt8.toNat ≤ 100 ∧
    a.targetSpeed = x ∧
    (a.modified = true → ∃ old : FanProfiles,
      let bs := frame 0xCF (replaceMode (m.toUInt8.toNat - 1) x.toUInt8 (percentages old))
      Sent bs acts ∧ ((∃ e, .store .profiles e ∈ acts) → SentRead .profiles bs acts)) ∧
    (a.modified = false → ∃ (c : Entry FanProfiles) (t t' : Int),
      acts = [.now t, .lock .fan, .load .profiles c, .now t', .unlock .fan] ∧
      inOf c.val (m.toUInt8 - 1) = x.toUInt8) := by
  have bounds : ¬ (m.toUInt8 < 1 ∨ m.toUInt8 > 4) → ¬ (x.toUInt8 < 15 ∨ x.toUInt8 > 100) →
      1 ≤ m.toUInt8.toNat ∧ m.toUInt8.toNat ≤ 4 ∧ 15 ≤ x.toUInt8.toNat ∧ x.toUInt8.toNat ≤ 100 := by
    intro h1 h2
    simp only [not_or, UInt8.lt_iff_toNat_lt, gt_iff_lt] at h1 h2
    have e1 : (1 : UInt8).toNat = 1 := rfl
    have e2 : (4 : UInt8).toNat = 4 := rfl
    have e3 : (15 : UInt8).toNat = 15 := rfl
    have e4 : (100 : UInt8).toNat = 100 := rfl
    rw [e1, e2] at h1
    rw [e3, e4] at h2
    omega
  generalize hr : Rpc.ok a = r at h
  cases h with
  | same t c stop h1 h2 h3 =>
    cases hr
    obtain ⟨b1, b2, b3, b4⟩ := bounds h1 h2
    exact ⟨b1, b2, b3, b4, rfl, (fun h => by cases h), fun _ => ⟨c, t, stop, rfl, h3⟩⟩
  | set t c sa u stop h1 h2 h3 hs hu =>
    cases hr
    obtain ⟨b1, b2, b3, b4⟩ := bounds h1 h2
    refine ⟨b1, b2, b3, b4, rfl, fun _ => ?_, fun h => by cases h⟩
    have hm1 : (m.toUInt8 - 1).toNat = m.toUInt8.toNat - 1 := by
      rw [UInt8.toNat_sub_of_le]
      · rfl
      · rw [UInt8.le_iff_toNat_le]; exact b1
    cases hs with
    | set fa sb v e' hm hx hf hs =>
      obtain ⟨bin, as, r, e, q, bs, hb, hsb, hno⟩ := setActs_sent hs
      rw [patch_bytes _ _ (by rw [hm1]; omega)] at hb
      cases hb
      rw [hm1] at hsb
      refine ⟨v, ?_, ?_⟩
      · refine ⟨.now t :: .lock .fan :: .load .profiles c :: .lock .am :: (fa ++ as), r, e, q,
          bs ++ [.unlock .am] ++ u ++ [.now stop, .unlock .fan], ?_⟩
        rw [hsb]
        simp [SetRequest.requestType]
      · rintro ⟨w, hw⟩
        obtain ⟨τ, ra, hra, rfl⟩ := hu
        obtain ⟨q', e', hq, -⟩ := hf
        have h1 := query_no_store hq .profiles w
        have h2 := hno .profiles w
        refine ⟨.now t :: .lock .fan :: .load .profiles c :: .lock .am :: (fa ++ as), r, e, q,
          bs ++ [.unlock .am, .lock (.cache .profiles), .now τ], τ, ra, [.now stop, .unlock .fan],
          ?_, hra, w, ?_⟩
        · rw [hsb]
          simp [SetRequest.requestType]
        · simpa [h1, h2] using hw
  | _ => cases hr

/-- A `SetFanSpeed` request that reports a modification. -/
theorem setSpeed_read {abs : UInt32} {rel : Bool} {acts : List Act} {a : SpeedModified}
    (h : SpeedActs abs rel acts (.ok a)) (hmod : a.modified = true)
    (hw : ∃ e, .store .profiles e ∈ acts) :
    ∃ m : UInt8, a.targetSpeed = m.toUInt32 ∧ SentRead .profiles (frame 0x99 [m]) acts := by
  generalize hr : Rpc.ok a = r at h
  cases h with
  | set t c m sa p x y pa u stop h1 h2 hs h4 hp hu =>
    cases hr
    obtain ⟨w, hw⟩ := hw
    obtain ⟨bin, as, r, e, q, bs, hb, hsb, hno⟩ := setActs_sent hs
    simp only [SetRequest.marshalBinary] at hb
    split at hb
    · cases hb
    cases hb
    obtain ⟨τ, ra, hra, rfl⟩ := hu
    have h1 := hno .profiles w
    have h2 := poll_no_store hp w
    refine ⟨m, rfl, .now t :: .lock .fan :: .load .profiles c :: as, r, e, q,
      bs ++ .rlock (.cache .profiles) :: .load .profiles p :: .runlock (.cache .profiles) ::
        (pa ++ [.lock (.cache .profiles), .now τ]), τ, ra, [.now stop, .unlock .fan], ?_, hra, w, ?_⟩
    · rw [hsb]
      simp [SetRequest.requestType]
    · simpa [h1, h2] using hw
  | same => cases hr; cases hmod
  | _ => cases hr

/-- A `SetComfortTemp` request that reports a modification. -/
theorem setComfort_read {cv : FloatConv} {x : UInt32} {acts : List Act} {a : ComfortModified}
    (h : ComfortActs cv x acts (.ok a)) (hmod : a.modified = true)
    (hw : ∃ e, .store .temps e ∈ acts) :
    ∃ b : UInt8, b.toNat = (x.toNat + 20) * 2 ∧ SentRead .temps (frame 0xD3 [b]) acts := by
  generalize hr : Rpc.ok a = r at h
  cases h with
  | set t c sa u stop hx h2 hs hu =>
    cases hr
    obtain ⟨w, hw⟩ := hw
    obtain ⟨bin, as, r, e, q, bs, hb, hsb, hno⟩ := setActs_sent hs
    simp only [SetRequest.marshalBinary] at hb
    split at hb
    · cases hb
    rename_i b hb'
    cases hb
    obtain ⟨τ, ra, hra, rfl⟩ := hu
    have h1 := hno .temps w
    refine ⟨b, ?_, .now t :: .load .temps c :: .lock .temp :: as, r, e, q,
      bs ++ [.lock (.cache .temps), .now τ], τ, ra, [.now stop, .unlock .temp], ?_, hra, w, ?_⟩
    · have hle : x.toNat ≤ 255 := by
        have := UInt32.not_lt.mp hx
        simpa [UInt32.le_iff_toNat_le] using this
      have hx8 : x.toUInt8.toNat = x.toNat := by simp; omega
      rw [hx8] at hb'
      unfold temperatureMarshal at hb'
      split at hb'
      · cases hb'
      split at hb'
      · cases hb'
      simp only [Prod.mk.injEq, and_true] at hb'
      rw [← hb']
      simp only [UInt8.toNat_ofNat']
      omega
    · rw [hsb]
      simp [SetRequest.requestType]
    · simpa [h1] using hw
  | same => cases hr; cases hmod
  | _ => cases hr

/-- One's own refresh counts. -/
theorem own_success {id : CacheId} {t : Tid} {rest : List (Tid × Act)} {as bs ra : List Act} {τ : Int}
    (h : actsOf t rest = as ++ ra ++ bs) (hr : RefreshActs id τ ra) (hv : ∃ v, .store id v ∈ ra)
    (c : Tid → Cur) : successes id c rest ≠ none := by
  obtain ⟨qa, q, e, hq, rfl⟩ := hr
  obtain ⟨v, hv⟩ := hv
  have hno := query_no_store hq id v
  obtain ⟨evs, ht, rfl⟩ := hq
  match ho : outcome id q e with
  | none =>
    simp [ho] at hv hno
    obtain ⟨a, h1, h2⟩ := hv
    exact absurd h2 (hno a h1)
  | some w =>
    have he : e = none := by cases e <;> simp [outcome] at ho ⊢
    subst he
    have hd : decode id q.data = some w := ho
    generalize hres : (q, none) = res at ht
    cases ht with
    | complete n q' hc =>
      cases hres
      have hc := hc rfl
      have e1 : actsOf t rest = (as ++ [.note id τ, .lock .pm,
          .wrote (frame (requestCode id) []) (n, none), .got true (q, none)]) ++
          .wrote ack (2, none) :: ([.unlock .pm] ++ [.store id ⟨w, τ⟩] ++ [.unlock (.cache id)] ++ bs) := by
        rw [h]; simp [ho, toAct]
      obtain ⟨r1, r2, rfl, h1, -⟩ := actsOf_split e1
      unfold successes
      rw [List.foldl_append, List.foldl_cons]
      refine fst_stays _ _ ?_
      have hcur := cur_own id t r1 (none, c)
      rw [h1, List.filterMap_append, List.foldl_append] at hcur
      simp only [List.filterMap_cons, evOf, List.filterMap_nil, List.foldl_cons, List.foldl_nil, scanEv,
        if_true, hc] at hcur
      rw [(scanAct_at _ (ev := .wrote ack (2, none)) rfl).1, hcur]
      simp [scanEv, hd]
    | _ => cases hres

/-- A command was confirmed, and the cache was refreshed afterwards: later requests for the cache see
the setting. -/
theorem read_back {cmd : UInt8} {id : CacheId} {shows : List UInt8 → CVal id → Prop} {S : Setup σ}
    (hcmd : cmd ≠ requestCode id) (U : ReportUnit cmd id shows S.line S.env) {w : World σ}
    {s₁ s₂ : Sys σ} (h₁ : Reachable S (Sys.initial w) s₁) (h₂ : Reachable S s₁ s₂) {t : Tid}
    {d : List UInt8} (hs : SentRead id (frame cmd d) (actsOf t s₁.sh.trace)) {j : Nat} {r : Resp}
    (hj : s₁.clients.length ≤ j) (ha : Answered s₂ j (getCall id) r) :
    ∃ pre rest, Confirmed s₂.sh.trace t (frame cmd d) pre rest ∧
      (NoCommand cmd rest → ∃ v, r = getAnswer id v ∧ shows d v) := by
  obtain ⟨mid, c, post, e1, e2, e3⟩ := C58_no_going_back h₁ h₂ hj ha
  obtain ⟨as, r', e, q, b1, τ, ra, b2, hacts, hra, hst⟩ := hs
  obtain ⟨pre, rest₁, htr, -, h2⟩ := actsOf_split hacts
  obtain ⟨m1, m2, rfl, h3, h4⟩ := actsOf_split (as := []) h2
  have hmid : ∀ a, (t, a) ∉ m1 := by
    intro a hm
    have : a ∈ actsOf t m1 := by
      simp only [actsOf, List.mem_filterMap]
      exact ⟨(t, a), hm, by simp⟩
    rw [h3] at this; cases this
  have conf : ∀ ext, Confirmed (s₁.sh.trace ++ ext) t (frame cmd d) pre
      (m1 ++ (t, .got e (q, none)) :: (m2 ++ ext)) := by
    intro ext
    exact ⟨r', m1, e, q, m2 ++ ext, by rw [htr]; simp, rfl, hmid⟩
  refine ⟨pre, m1 ++ (t, .got e (q, none)) :: (m2 ++ (mid ++ (.client j, .load id c) :: post)), ?_, ?_⟩
  · rw [e1, List.append_assoc]; exact conf _
  · intro hn
    obtain ⟨g, hi⟩ := inv6 hcmd U (reach_trans h₁ h₂)
    have hE : EchoInv U g s₂.sh := hi.glob.2
    have hc := conf mid
    have hn' : NoCommand cmd (m1 ++ (t, .got e (q, none)) :: (m2 ++ mid)) := by
      intro u d' r'' hm
      refine hn u d' r'' ?_
      simp only [List.mem_append, List.mem_cons] at hm ⊢
      rcases hm with h | h | h | h
      · exact .inl h
      · exact .inr (.inl h)
      · exact .inr (.inr (.inl h))
      · exact .inr (.inr (.inr (.inl h)))
    have hne : successes id (others t (scanAll id pre).2) (m1 ++ (t, .got e (q, none)) :: (m2 ++ mid)) ≠
        none := by
      have : actsOf t (m1 ++ (t, .got e (q, none)) :: (m2 ++ mid)) =
          (.got e (q, none) :: b1) ++ ra ++ (b2 ++ actsOf t mid) := by
        have h5 : actsOf t ((t, Act.got e (q, none)) :: m2) = .got e (q, none) :: actsOf t m2 := by
          simp [actsOf]
        rw [show m1 ++ (t, Act.got e (q, none)) :: (m2 ++ mid) =
          m1 ++ ((t, .got e (q, none)) :: m2) ++ mid by simp, actsOf_append, actsOf_append, h3, h5, h4]
        simp
      exact own_success this hra hst _
    match hsu : successes id (others t (scanAll id pre).2)
        (m1 ++ (t, .got e (q, none)) :: (m2 ++ mid)) with
    | none => exact absurd hsu hne
    | some (v, τ') =>
      have hshow := hE.echo _ _ t d pre _ e1 hc hn' v τ' hsu
      refine ⟨v, ?_, hshow⟩
      have hsf := scan_from (id := id) hcmd hc
      rw [e3, e2]
      unfold current
      rw [hsf, hsu]
      rfl

/-! ## C65 -/

/-- A unit as in C28, seen as a unit with one setting. -/
def profileReport {L : Line σ} {env : σ → σ → Prop} (U : ProfileUnit L env) :
    ReportUnit 0xCF .profiles ShowsPct L env where
  value := U.pct
  last := U.last
  took := U.took
  write_last := U.write_last
  write_set := U.write_set
  write_other := U.write_other
  read_same := U.read_pct
  read_ack := U.read_ack
  read_reply h hl hq hd := U.read_reply h hl hq hd
  env_same := U.env_same

/-- The unit has 30 % in and 35 % out for mode 2, and the server has just read that. -/
def lopsided : World Dev :=
  { line := deviceStart.line
    profiles := ⟨{ outAway := 15, outLow := 35, outMid := 55, inAway := 15, inLow := 30, inMid := 50,
                   currentOut := 30, currentIn := 35, currentMode := 2, inFanActive := true,
                   outHigh := 75, inHigh := 70 }, 0⟩ }

/-- The cache of `lopsided` is what the unit would answer. -/
example : decode .profiles lopsided.line.payload = some lopsided.profiles.val := rfl

/-- **C65** (violated) The cache is right and nobody else does anything. `SetFanProfile(2, 30 %)`
succeeds, but the out-fan of mode 2 keeps its 35 %: only the in-percentage is compared. -/
theorem C65_violated : ∃ s a, Reachable device (Sys.initial lopsided) s ∧
    Answered s 0 (.setProfile 2 30) (.speed (.ok a)) ∧ a.targetSpeed = 30 ∧
    deviceUnit.pct s.sh.world.line = [15, 35, 55, 15, 30, 50, 75, 70] := by
  have h2 := execs_sound (S := device) (cmds := [.arrive (.setProfile 2 30)] ++ steps 5 (.client 0))
    (fun _ _ => trivial) (.start (s₀ := Sys.initial lopsided)) rfl
  exact ⟨_, _, h2, rfl, rfl, rfl⟩

/-- **C65** (violated) Mode and percentage are cut to 8 bits: `SetFanProfile(258, 276 %)` reports
success with a target of 276 %, and the unit has 20 % for mode 2. -/
theorem C65_violated_wide : ∃ s a, Reachable device (Sys.initial lopsided) s ∧
    Answered s 0 (.setProfile 258 276) (.speed (.ok a)) ∧ a.modified = true ∧ a.targetSpeed = 276 ∧
    deviceUnit.pct s.sh.world.line = [15, 20, 55, 15, 20, 50, 75, 70] := by
  have h2 := execs_sound (S := device) (cmds := [.arrive (.setProfile 258 276)] ++ steps 27 (.client 0))
    (fun _ _ => trivial) (.start (s₀ := Sys.initial lopsided)) rfl
  exact ⟨_, _, h2, rfl, rfl, rfl, rfl⟩

/-- **C65** (partial) For every unit that works, at every moment after `SetFanProfile(m, x)`
succeeded, with `m'` and `x'` the last 8 bits of `m` and `x`:
if it reports a modification, a fan-profile command `d` was written and confirmed in which both
percentages of mode `m'` are `x'`, and unless somebody has written another fan-profile command since,
these are the percentages of the unit;
if it reports none, `x'` is the in-percentage of mode `m'` found in the cache, and nothing was sent.
Missing: in the second case the unit may have another out-percentage (`C65_violated`), or, if the
cache is outdated, other percentages altogether; and `m'`, `x'` need not be `m`, `x`
(`C65_violated_wide`). -/
theorem C65_profile_set_partial {S : Setup σ} (U : SettingUnit 0xCF S.line S.env) {w : World σ}
    {s : Sys σ} (h : Reachable S (Sys.initial w) s) {i : Nat} {m x : UInt32} {a : SpeedModified}
    (ha : Answered s i (.setProfile m x) (.speed (.ok a))) :
    ∃ mode pc : UInt8, mode.toNat = m.toNat % 256 ∧ pc.toNat = x.toNat % 256 ∧
      1 ≤ mode.toNat ∧ mode.toNat ≤ 4 ∧ 15 ≤ pc.toNat ∧ pc.toNat ≤ 100 ∧ a.targetSpeed = x ∧
      (a.modified = true → ∃ d pre rest, d.length = 8 ∧ (∀ k ∈ entries (mode.toNat - 1), d[k]? = some pc) ∧
        Confirmed s.sh.trace (.client i) (frame 0xCF d) pre rest ∧
        (NoCommand 0xCF rest → U.value s.sh.world.line = d)) ∧
      (a.modified = false → ∃ (c : Entry FanProfiles) (pre post : List (Tid × Act)),
        s.sh.trace = pre ++ (.client i, .load .profiles c) :: post ∧
        (percentages c.val)[([3, 4, 5, 7] : List Nat).getD (mode.toNat - 1) 0]? = some pc ∧
        ∀ bs r, (Tid.client i, Act.wrote bs r) ∉ s.sh.trace) := by
  obtain ⟨g, hi⟩ := inv4 U h
  obtain ⟨b, hb, hp⟩ := (post_resp (post_setFanProfileRpc m x)).answered (c := .setProfile m x) h ha
  cases hb
  obtain ⟨h1, h2, h3, h4, h5, h6, h7⟩ := setProfile_sent hp
  refine ⟨m.toUInt8, x.toUInt8, by simp, by simp, h1, h2, h3, h4, h5, fun hmod => ?_, fun hmod => ?_⟩
  · obtain ⟨old, hs, -⟩ := h6 hmod
    obtain ⟨pre, rest, hc⟩ := sent_confirmed hs
    refine ⟨_, pre, rest, ?_, ?_, hc, hi.glob.2.conf _ _ pre rest hc⟩
    · generalize m.toUInt8.toNat - 1 = k
      match k with
      | 0 | 1 | 2 | 3 => rfl
      | n + 4 => rfl
    · exact replaceMode_same rfl
  · obtain ⟨c, t, t', hacts, hin⟩ := h7 hmod
    have : actsOf (.client i) s.sh.trace = [.now t, .lock .fan] ++ .load .profiles c ::
      [.now t', .unlock .fan] := hacts
    obtain ⟨pre, post, htr, -, -⟩ := actsOf_split this
    refine ⟨c, pre, post, htr, ?_, fun bs r hmem => ?_⟩
    · rw [← hin]
      have : m.toUInt8 = 1 ∨ m.toUInt8 = 2 ∨ m.toUInt8 = 3 ∨ m.toUInt8 = 4 := by
        have : m.toUInt8.toNat = 1 ∨ m.toUInt8.toNat = 2 ∨ m.toUInt8.toNat = 3 ∨ m.toUInt8.toNat = 4 := by
          omega
        rcases this with h | h | h | h
        · exact .inl (UInt8.toNat.inj h)
        · exact .inr (.inl (UInt8.toNat.inj h))
        · exact .inr (.inr (.inl (UInt8.toNat.inj h)))
        · exact .inr (.inr (.inr (UInt8.toNat.inj h)))
      rcases this with h | h | h | h <;> rw [h] <;> rfl
    · have : Act.wrote bs r ∈ actsOf (.client i) s.sh.trace := by
        simp only [actsOf, List.mem_filterMap]
        exact ⟨_, hmem, by simp⟩
      rw [hacts] at this
      simp at this

/-- The hypotheses are met, with another request in between: `SetFanProfile(3, 40 %)` is reported as a
modification and exactly one fan-profile command was written. -/
example : ∃ s a, Reachable device (Sys.initial lopsided) s ∧
    Answered s 0 (.setProfile 3 40) (.speed (.ok a)) ∧ a.modified = true ∧
    commandsB 0xCF s.sh.trace = 1 ∧
    deviceUnit.pct s.sh.world.line = [15, 35, 40, 15, 30, 40, 75, 70] := by
  have h2 := execs_sound (S := device) (cmds := [.arrive (.setProfile 3 40), .arrive (.setSpeed 3 false)] ++
    steps 8 (.client 0) ++ steps 1 (.client 1) ++ steps 19 (.client 0))
    (fun _ _ => trivial) (.start (s₀ := Sys.initial lopsided)) rfl
  exact ⟨_, _, h2, rfl, rfl, rfl, rfl⟩

/-! ## C66 -/

/-- **C66** (partial) Read your own writes: `SetFanProfile(m, x)` reports a modification in `s₁`, and
the query with which it refreshed the cache succeeded. Whoever asks for the fan profiles afterwards
sees percentages `d` in which both entries of the mode are `x`, unless somebody has written another
fan-profile command since. Missing: if that query failed, the old values are served
(`C66_violated`). -/
theorem C66_profile_partial {S : Setup σ} (U : ReportUnit 0xCF .profiles ShowsPct S.line S.env)
    {w : World σ} {s₁ s₂ : Sys σ} (h₁ : Reachable S (Sys.initial w) s₁) {i : Nat} {m x : UInt32}
    {a : SpeedModified} (ha : Answered s₁ i (.setProfile m x) (.speed (.ok a)))
    (hmod : a.modified = true) (hst : ∃ e, (Tid.client i, Act.store .profiles e) ∈ s₁.sh.trace)
    (h₂ : Reachable S s₁ s₂) {j : Nat} (hj : s₁.clients.length ≤ j) {r : Resp}
    (hr : Answered s₂ j .getProfiles r) :
    ∃ d pre rest, (∀ k ∈ entries (m.toNat % 256 - 1), d[k]? = some x.toUInt8) ∧
      Confirmed s₂.sh.trace (.client i) (frame 0xCF d) pre rest ∧
      (NoCommand 0xCF rest → ∃ v, r = getAnswer .profiles v ∧ percentages v = d) := by
  obtain ⟨b, hb, hp⟩ := (post_resp (post_setFanProfileRpc m x)).answered (c := .setProfile m x) h₁ ha
  cases hb
  obtain ⟨-, -, -, -, -, h6, -⟩ := setProfile_sent hp
  obtain ⟨old, -, hs⟩ := h6 hmod
  obtain ⟨e, he⟩ := hst
  have : Act.store .profiles e ∈ actsOf (.client i) s₁.sh.trace := by
    simp only [actsOf, List.mem_filterMap]
    exact ⟨_, he, by simp⟩
  obtain ⟨pre, rest, hc, h7⟩ := read_back (by decide) U h₁ h₂ (hs ⟨e, this⟩) hj hr
  refine ⟨_, pre, rest, ?_, hc, h7⟩
  rw [show m.toNat % 256 = m.toUInt8.toNat by simp]
  exact replaceMode_same rfl

/-- **C66** (partial) The same for `SetFanSpeed`: whoever asks for the fan profiles afterwards sees
the reported speed. -/
theorem C66_speed_partial {S : Setup σ} (U : ReportUnit 0x99 .profiles ShowsSpeed S.line S.env)
    {w : World σ} {s₁ s₂ : Sys σ} (h₁ : Reachable S (Sys.initial w) s₁) {i : Nat} {abs : UInt32}
    {rel : Bool} {a : SpeedModified} (ha : Answered s₁ i (.setSpeed abs rel) (.speed (.ok a)))
    (hmod : a.modified = true) (hst : ∃ e, (Tid.client i, Act.store .profiles e) ∈ s₁.sh.trace)
    (h₂ : Reachable S s₁ s₂) {j : Nat} (hj : s₁.clients.length ≤ j) {r : Resp}
    (hr : Answered s₂ j .getProfiles r) :
    ∃ d pre rest, Confirmed s₂.sh.trace (.client i) (frame 0x99 d) pre rest ∧
      (NoCommand 0x99 rest → ∃ v : FanProfiles, r = getAnswer .profiles v ∧
        v.currentMode.toUInt32 = a.targetSpeed) := by
  obtain ⟨b, hb, hp⟩ := (post_resp (post_setFanSpeed abs rel)).answered (c := .setSpeed abs rel) h₁ ha
  cases hb
  obtain ⟨e, he⟩ := hst
  have : Act.store .profiles e ∈ actsOf (.client i) s₁.sh.trace := by
    simp only [actsOf, List.mem_filterMap]
    exact ⟨_, he, by simp⟩
  obtain ⟨m, hm, hs⟩ := setSpeed_read hp hmod ⟨e, this⟩
  obtain ⟨pre, rest, hc, h7⟩ := read_back (by decide) U h₁ h₂ hs hj hr
  refine ⟨_, pre, rest, hc, fun hn => ?_⟩
  obtain ⟨v, h8, h9⟩ := h7 hn
  refine ⟨v, h8, ?_⟩
  simp only [ShowsSpeed, List.cons.injEq, and_true] at h9
  rw [hm, h9]

/-- **C66** (partial) The same for `SetComfortTemp(x)`: whoever asks for the temperatures afterwards
sees `x`. -/
theorem C66_comfort_partial {S : Setup σ} (U : ReportUnit 0xD3 .temps ShowsComfort S.line S.env)
    {w : World σ} {s₁ s₂ : Sys σ} (h₁ : Reachable S (Sys.initial w) s₁) {i : Nat} {x : UInt32}
    {a : ComfortModified} (ha : Answered s₁ i (.setComfort x) (.comfort (.ok a)))
    (hmod : a.modified = true) (hst : ∃ e, (Tid.client i, Act.store .temps e) ∈ s₁.sh.trace)
    (h₂ : Reachable S s₁ s₂) {j : Nat} (hj : s₁.clients.length ≤ j) {r : Resp}
    (hr : Answered s₂ j .getTemps r) :
    ∃ d pre rest, Confirmed s₂.sh.trace (.client i) (frame 0xD3 d) pre rest ∧
      (NoCommand 0xD3 rest → ∃ v : Temps, r = getAnswer .temps v ∧ v.comfort = x.toNat) := by
  obtain ⟨b, hb, hp⟩ := (post_resp (post_setComfortTemp S.cv x)).answered (c := .setComfort x) h₁ ha
  cases hb
  obtain ⟨e, he⟩ := hst
  have : Act.store .temps e ∈ actsOf (.client i) s₁.sh.trace := by
    simp only [actsOf, List.mem_filterMap]
    exact ⟨_, he, by simp⟩
  obtain ⟨b, hb, hs⟩ := setComfort_read hp hmod ⟨e, this⟩
  obtain ⟨pre, rest, hc, h7⟩ := read_back (by decide) U h₁ h₂ hs hj hr
  refine ⟨_, pre, rest, hc, fun hn => ?_⟩
  obtain ⟨v, h8, b', h9, h10⟩ := h7 hn
  cases h9
  refine ⟨v, h8, ?_⟩
  rw [h10, hb]
  omega

/-- The examples' unit reports its fan speed. -/
def ventSpeedReport : ReportUnit 0x99 .profiles ShowsSpeed ventLine ventFault where
  toSettingUnit := ventSpeed
  read_reply := by
    intro s q s' v h hl hq hd
    have hlast : s.last.getD 3 0 = 0xCD := by
      rw [show s.last = frame 0xCD [] from hl]; rfl
    simp only [ventLine, hlast] at h
    split at h
    · cases h
    · simp at h
      obtain ⟨rfl, -⟩ := h
      simp only [decode, samplePayload] at hd
      simp [okVal, profiles_list] at hd
      cases hd
      rfl

/-- The examples' unit reports its comfort temperature. -/
def ventComfortReport : ReportUnit 0xD3 .temps ShowsComfort ventLine ventFault where
  toSettingUnit := ventComfort
  read_reply := by
    intro s q s' v h hl hq hd
    have hlast : s.last.getD 3 0 = 0xD1 := by
      rw [show s.last = frame 0xD1 [] from hl]; rfl
    simp only [ventLine, hlast] at h
    split at h
    · cases h
    · simp at h
      obtain ⟨rfl, -⟩ := h
      simp only [decode, samplePayload] at hd
      simp [okVal, Temps.unmarshalBinary, Go.ofOption] at hd
      cases hd
      refine ⟨s.comfort, rfl, ?_⟩
      simp [temperatureUnmarshal]

/-- **C66** (violated) The unit carries `SetComfortTemp(25)` out and confirms it, but does not answer
the query after that. The request reports a modification; everybody who asks for the temperatures
afterwards gets the old 21 °C. -/
theorem C66_violated : ∃ s a b, Reachable vent (Sys.initial (ventStart 3)) s ∧
    Answered s 0 (.setComfort 25) (.comfort (.ok a)) ∧ a.modified = true ∧ a.targetTemp = 25 ∧
    s.sh.world.line.comfort.toNat = (25 + 20) * 2 ∧
    Answered s 1 .getTemps (.temps (.ok b)) ∧ b.comfort = 21 := by
  have h1 := execs_sound (S := vent) (cmds := [.arrive (.setComfort 25)] ++ steps 8 (.client 0))
    (fun _ _ => trivial) (.start (s₀ := Sys.initial (ventStart 3))) rfl
  have h2 := h1.step (.environment
    { speed := 3, comfort := 90, mute := true, last := frame 0xD3 [90], took := true } 5
    ⟨false, true, rfl⟩)
  have h3 := execs_sound (S := vent) (cmds := steps 10 (.client 0) ++ [.arrive .getTemps] ++
    steps 3 (.client 1)) (fun _ _ => trivial) h2 rfl
  exact ⟨_, _, _, h3, rfl, rfl, rfl, rfl, rfl, rfl⟩

/-- Request 0 has stored a new value of cache `id`. -/
def storedB (id : CacheId) (tr : List (Tid × Act)) : Bool :=
  tr.any fun x => match x with
    | (.client 0, .store i _) => i == id
    | _ => false

/-- The hypotheses are met, with another request in between: `SetComfortTemp(25)` is reported as a
modification, it has refreshed the cache, and a later request gets 25 °C. -/
example : ∃ s₁ s₂, Reachable vent (Sys.initial (ventStart 3)) s₁ ∧
    (storedB .temps s₁.sh.trace && s₁.clients.length == 2 && match s₁.clients.map Client.prog with
      | [.ret (.comfort (.ok a)), _] => a.modified
      | _ => false) = true ∧
    Reachable vent s₁ s₂ ∧
    (commandsB 0xD3 s₂.sh.trace == 1 && match s₂.clients.map Client.prog with
      | [_, _, .ret (.temps (.ok b))] => b.comfort == 25
      | _ => false) = true := by
  refine exec_witness2 _ ([.arrive (.setComfort 25), .arrive (.setSpeed 2 false)] ++
    steps 3 (.client 0) ++ steps 3 (.client 1) ++ steps 17 (.client 0))
    (steps 5 (.client 1) ++ [.arrive .getTemps] ++ steps 3 (.client 2)) (fun _ => trivial) _ _ ?_
  set_option maxRecDepth 8000 in decide

/-- The same for `SetFanProfile(3, 40 %)`, with a refresh by the worker before the question. -/
example : ∃ s₁ s₂, Reachable device (Sys.initial lopsided) s₁ ∧
    (storedB .profiles s₁.sh.trace && s₁.clients.length == 1 && match s₁.clients.map Client.prog with
      | [.ret (.speed (.ok a))] => a.modified
      | _ => false) = true ∧
    Reachable device s₁ s₂ ∧
    (commandsB 0xCF s₂.sh.trace == 1 && match s₂.clients.map Client.prog with
      | [_, .ret (.profiles (.ok b))] => b.inMid == 40 && b.outMid == 40
      | _ => false) = true := by
  refine exec_witness2 _ ([.arrive (.setProfile 3 40)] ++ steps 27 (.client 0))
    ([.tick .slow] ++ steps 4 .worker ++ [.arrive .getProfiles] ++ steps 3 (.client 1))
    (fun _ => trivial) _ _ ?_
  set_option maxRecDepth 8000 in decide

/-- The same for `SetFanSpeed(2)`. -/
example : ∃ s₁ s₂, Reachable vent (Sys.initial (ventStart 3)) s₁ ∧
    (storedB .profiles s₁.sh.trace && s₁.clients.length == 1 && match s₁.clients.map Client.prog with
      | [.ret (.speed (.ok a))] => a.modified && a.targetSpeed == 2
      | _ => false) = true ∧
    Reachable vent s₁ s₂ ∧
    (commandsB 0x99 s₂.sh.trace == 1 && match s₂.clients.map Client.prog with
      | [_, .ret (.profiles (.ok b))] => b.currentMode == 2
      | _ => false) = true := by
  refine exec_witness2 _ ([.arrive (.setSpeed 2 false)] ++ steps 35 (.client 0))
    ([.arrive .getProfiles] ++ steps 3 (.client 1)) (fun _ => trivial) _ _ ?_
  set_option maxRecDepth 8000 in decide

end Comfo.Props
