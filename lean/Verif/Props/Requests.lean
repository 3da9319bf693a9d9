import Verif.Props.Polling
/-!
# What a set request writes, in every interleaving: C40, C41, C43, C44, C45

The theorems of `Props/Server.lean` are about a request that runs alone. Here the other requests and
the worker may do anything in between.
-/
namespace Comfo.Props
open Spec

theorem queries_append (a b : List Act) : queries (a ++ b) = queries a ++ queries b := by
  simp [queries, written_append]

theorem queries_cons_other {a : Act} (h : ∀ bs r, a ≠ .wrote bs r) (b : List Act) :
    queries (a :: b) = queries b := by
  cases a <;> first | rfl | exact absurd rfl (h _ _)

theorem ack_filter : ([ack] : List (List UInt8)).filter (· != ack) = [] := by decide

theorem queries_query {cmd : UInt8} {data : List UInt8} {e : Bool} {acts : List Act}
    {r : Packet × Option Err} (h : QueryActs cmd data e acts r) : queries acts = [frame cmd data] := by
  obtain ⟨evs, ht, rfl⟩ := h
  have hf : (frame cmd data != ack) = true := by simpa using frame_ne_ack cmd data
  have e : written (.lock .pm :: evs.map toAct ++ [.unlock .pm]) = [frame cmd data] ∨
      written (.lock .pm :: evs.map toAct ++ [.unlock .pm]) = [frame cmd data, ack] := by
    cases ht <;> simp [written, toAct]
  unfold queries
  rcases e with e | e <;> rw [e] <;> simp [hf]

theorem queries_forced {id : CacheId} {acts : List Act} (h : ForcedActs id acts) :
    queries acts = [frame (requestCode id) []] := by
  obtain ⟨t, ra, ⟨qa, q, e, hq, rfl⟩, rfl⟩ := h
  have : queries (.lock (.cache id) :: .now t :: (.note id t :: qa ++
      (match outcome id q e with | some v => [.store id ⟨v, t⟩] | none => []) ++
        [.unlock (.cache id)])) = queries qa := by
    cases outcome id q e <;> simp [queries, written]
  exact this.trans (queries_query hq)

theorem queries_poll {a b : UInt8} {n : Nat} {acts : List Act} {r : Option SrvErr}
    (h : PollActs a b n acts r) : ∃ k, k ≤ n ∧ queries acts = List.replicate k (frame 0x0B []) ∧
      (r = none → 1 ≤ k) ∧ (r ≠ none → k = n) := by
  induction h with
  | zero => exact ⟨0, Nat.le_refl _, rfl, fun h => (by cases h), fun _ => rfl⟩
  | hit n u f g hu h1 h2 =>
    exact ⟨1, by omega, by rw [queries_append, queries_forced hu]; rfl, fun _ => Nat.le_refl _,
      fun h => absurd rfl h⟩
  | missIn n u rest res f hu hf hp ih =>
    obtain ⟨k, h1, h2, h3, h4⟩ := ih
    refine ⟨k + 1, by omega, ?_, fun _ => by omega, fun h => by rw [h4 h]⟩
    rw [queries_append, queries_forced hu]
    have : queries (Act.load .fans f :: .sleep 500000000 :: rest) = queries rest := rfl
    rw [this, h2]; rfl
  | missOut n u rest res f g hu hf hg hp ih =>
    obtain ⟨k, h1, h2, h3, h4⟩ := ih
    refine ⟨k + 1, by omega, ?_, fun _ => by omega, fun h => by rw [h4 h]⟩
    rw [queries_append, queries_forced hu]
    have : queries (Act.load .fans f :: .load .fans g :: .sleep 500000000 :: rest) = queries rest := rfl
    rw [this, h2]; rfl

theorem poll_last {a b : UInt8} {n : Nat} {acts : List Act} (h : PollActs a b n acts none) :
    ∃ pre f g, acts = pre ++ [.load .fans f, .load .fans g] ∧ f.val.inPercent = a ∧
      g.val.outPercent = b := by
  generalize hr : (none : Option SrvErr) = r at h
  induction h with
  | zero => cases hr
  | hit n u f g hu h1 h2 => exact ⟨u, f, g, rfl, h1, h2⟩
  | missIn n u rest res f hu hf hp ih =>
    obtain ⟨pre, f', g', rfl, h⟩ := ih hr
    exact ⟨u ++ .load .fans f :: .sleep 500000000 :: pre, f', g', by simp, h⟩
  | missOut n u rest res f g hu hf hg hp ih =>
    obtain ⟨pre, f', g', rfl, h⟩ := ih hr
    exact ⟨u ++ .load .fans f :: .load .fans g :: .sleep 500000000 :: pre, f', g', by simp, h⟩

theorem queries_set {inp : SetRequest} {acts : List Act} {e : Option Err} (h : SetActs inp acts e) :
    (∃ bin, inp.marshalBinary = (bin, none) ∧ queries acts = [frame inp.requestType bin]) ∨
    ((∃ bin e', inp.marshalBinary = (bin, some e')) ∧ e ≠ none ∧ acts = []) := by
  rcases h with ⟨bin, q, h1, h2⟩ | ⟨rfl, bin, e', h1, h2⟩
  · exact .inl ⟨bin, h1, queries_query h2⟩
  · exact .inr ⟨⟨bin, e', h1⟩, by rw [h2]; simp, rfl⟩

theorem queries_set_speed {m : UInt8} {acts : List Act} {e : Option Err} (h4 : m.toNat ≤ 4)
    (h : SetActs (.speed m) acts e) : queries acts = [frame 0x99 [m]] := by
  have hm : (SetRequest.speed m).marshalBinary = ([m], none) := by
    simp only [SetRequest.marshalBinary]
    rw [if_neg]
    rw [gt_iff_lt, u8_lt]
    have : (4 : UInt8).toNat = 4 := rfl
    omega
  rcases queries_set h with ⟨bin, h1, h2⟩ | ⟨⟨bin, e', h1⟩, -⟩
  · rw [hm] at h1; cases h1; exact h2
  · rw [hm] at h1; cases h1

theorem modify_ok {base : UInt8} {abs : UInt32} {rel : Bool} {m : UInt8}
    (h : modifySpeed base abs rel = (m, none)) : 1 ≤ m.toNat ∧ m.toNat ≤ 4 := by
  have := (C39_modify_speed base abs rel).2.1
  rw [h] at this
  exact this rfl

theorem modify_err {base : UInt8} {abs : UInt32} {rel : Bool} {m : UInt8} {e : Twirp}
    (h : modifySpeed base abs rel = (m, some e)) : ∃ arg, e = .invalidArgument arg := by
  have := (C39_modify_speed base abs rel).1
  rw [h] at this
  exact this e rfl

theorem speed_answered {S : Setup σ} {w : World σ} {s : Sys σ} (h : Reachable S (Sys.initial w) s)
    {i : Nat} {abs : UInt32} {rel : Bool} {x : Rpc SpeedModified}
    (ha : Answered s i (.setSpeed abs rel) (.speed x)) :
    SpeedActs abs rel (actsOf (.client i) s.sh.trace) x := by
  obtain ⟨x', e, hx⟩ := Prog.Post.answered (c := .setSpeed abs rel)
    (P := fun acts r => ∃ x, r = .speed x ∧ SpeedActs abs rel acts x)
    ((post_setFanSpeed abs rel).mono (fun _ x hx => ⟨x, rfl, hx⟩)).map h ha
  cases e; exact hx

theorem profile_answered {S : Setup σ} {w : World σ} {s : Sys σ} (h : Reachable S (Sys.initial w) s)
    {i : Nat} {m t : UInt32} {x : Rpc SpeedModified}
    (ha : Answered s i (.setProfile m t) (.speed x)) :
    ProfileRpcActs m t (actsOf (.client i) s.sh.trace) x := by
  obtain ⟨x', e, hx⟩ := Prog.Post.answered (c := .setProfile m t)
    (P := fun acts r => ∃ x, r = .speed x ∧ ProfileRpcActs m t acts x)
    ((post_setFanProfileRpc m t).mono (fun _ x hx => ⟨x, rfl, hx⟩)).map h ha
  cases e; exact hx

theorem comfort_answered {S : Setup σ} {w : World σ} {s : Sys σ} (h : Reachable S (Sys.initial w) s)
    {i : Nat} {v : UInt32} {x : Rpc ComfortModified}
    (ha : Answered s i (.setComfort v) (.comfort x)) :
    ComfortActs S.cv v (actsOf (.client i) s.sh.trace) x := by
  obtain ⟨x', e, hx⟩ := Prog.Post.answered (c := .setComfort v)
    (P := fun acts r => ∃ x, r = .comfort x ∧ ComfortActs S.cv v acts x)
    ((post_setComfortTemp S.cv v).mono (fun _ x hx => ⟨x, rfl, hx⟩)).map h ha
  cases e; exact hx

/-! ## C40, C41 -/

theorem modify_abs (base : UInt8) {abs : UInt32} (h0 : abs ≠ 0) :
    (1 ≤ abs.toNat % 256 ∧ abs.toNat % 256 ≤ 4 → modifySpeed base abs false = (abs.toUInt8, none)) ∧
    (¬ (1 ≤ abs.toNat % 256 ∧ abs.toNat % 256 ≤ 4) →
      modifySpeed base abs false = (base, some (.invalidArgument (.speedRange abs.toUInt8)))) := by
  have e3 : abs.toUInt8.toNat = abs.toNat % 256 := by simp
  have c1 : (1 : UInt8).toNat = 1 := rfl
  have c4 : (4 : UInt8).toNat = 4 := rfl
  unfold modifySpeed
  simp only [h0, ne_eq, not_false_eq_true, Bool.false_eq_true, and_false, if_false, if_true]
  constructor
  · intro h
    rw [if_neg]
    rw [gt_iff_lt, u8_lt, u8_lt]
    omega
  · intro h
    rw [if_pos]
    rw [gt_iff_lt, u8_lt, u8_lt]
    omega

/-- **C40**, the true part, in every interleaving: a `SetFanSpeed` request with Abs is answered with
InvalidArgument exactly if the lowest byte of Abs is not 1 to 4, and then nothing was written; else
a command for another speed than this byte is never written. *Missing from the full property:* values
above 255 with a lowest byte 1 to 4, see `C40_abs_rejected_violated`. -/
theorem C40_request_partial {S : Setup σ} {w : World σ} {s : Sys σ}
    (h : Reachable S (Sys.initial w) s) {i : Nat} {abs : UInt32} (h0 : abs ≠ 0)
    {x : Rpc SpeedModified} (ha : Answered s i (.setSpeed abs false) (.speed x)) :
    ((∃ arg, x = .err (.invalidArgument arg)) ↔ ¬ (1 ≤ abs.toNat % 256 ∧ abs.toNat % 256 ≤ 4)) ∧
    ((∃ arg, x = .err (.invalidArgument arg)) → written (actsOf (.client i) s.sh.trace) = []) ∧
    (∀ v, x = .ok v → v.targetSpeed.toNat = abs.toNat % 256) := by
  have hx := speed_answered h ha
  have hm := fun base => modify_abs base h0
  have h8 : abs.toUInt8.toUInt32.toNat = abs.toNat % 256 := by simp
  have ok : ∀ {base m : UInt8}, modifySpeed base abs false = (m, none) →
      (1 ≤ abs.toNat % 256 ∧ abs.toNat % 256 ≤ 4) ∧ m = abs.toUInt8 := by
    intro base m hh
    by_cases hb : 1 ≤ abs.toNat % 256 ∧ abs.toNat % 256 ≤ 4
    · rw [(hm base).1 hb] at hh; cases hh; exact ⟨hb, rfl⟩
    · rw [(hm base).2 hb] at hh; cases hh
  generalize actsOf (.client i) s.sh.trace = acts at hx
  cases hx with
  | rejected t c b e hmm =>
    obtain ⟨arg, rfl⟩ := modify_err hmm
    refine ⟨⟨fun _ hb => ?_, fun _ => ⟨arg, rfl⟩⟩, fun _ => rfl, fun v hv => by cases hv⟩
    rw [(hm _).1 hb] at hmm; cases hmm
  | same t c stop hmm =>
    refine ⟨⟨fun ⟨_, h⟩ => (by cases h), fun hb => absurd (ok hmm).1 hb⟩, fun ⟨_, h⟩ => (by cases h),
      fun v hv => ?_⟩
    cases hv
    show c.val.currentMode.toUInt32.toNat = _
    rw [(ok hmm).2]; exact h8
  | setFailed t c m sa e hmm hne hs =>
    exact ⟨⟨fun ⟨_, h⟩ => (by cases h), fun hb => absurd (ok hmm).1 hb⟩, fun ⟨_, h⟩ => (by cases h),
      fun v hv => by cases hv⟩
  | noTarget t c m sa p e hmm hne hs hl =>
    exact ⟨⟨fun ⟨_, h⟩ => (by cases h), fun hb => absurd (ok hmm).1 hb⟩, fun ⟨_, h⟩ => (by cases h),
      fun v hv => by cases hv⟩
  | pollFailed t c m sa p x y pa e hmm hne hs hl hpo =>
    exact ⟨⟨fun ⟨_, h⟩ => (by cases h), fun hb => absurd (ok hmm).1 hb⟩, fun ⟨_, h⟩ => (by cases h),
      fun v hv => by cases hv⟩
  | set t c m sa p x y pa u stop hmm hne hs hl hpo hu =>
    refine ⟨⟨fun ⟨_, h⟩ => (by cases h), fun hb => absurd (ok hmm).1 hb⟩, fun ⟨_, h⟩ => (by cases h),
      fun v hv => ?_⟩
    cases hv
    show m.toUInt32.toNat = _
    rw [(ok hmm).2]; exact h8

/-- **C41**, the true part, in every interleaving. If a change is reported, the request has written
exactly one speed command, with the reported speed 1 to 4, then asked 1 to 10 times for the fans,
then once for the profiles; and the last it saw of the fans, after the last query, were the
percentages of that speed in the profile it had seen after the command. If no change is reported, or
the answer is InvalidArgument, it has written nothing. *Missing from the full property:* the
percentages may stem from before the command, see `C41_truthful_violated`. -/
theorem C41_request_partial {S : Setup σ} {w : World σ} {s : Sys σ}
    (h : Reachable S (Sys.initial w) s) {i : Nat} {abs : UInt32} {rel : Bool}
    {x : Rpc SpeedModified} (ha : Answered s i (.setSpeed abs rel) (.speed x)) :
    let acts := actsOf (.client i) s.sh.trace
    (∀ v, x = .ok v → v.modified = true → ∃ (b : UInt8) (n : Nat), 1 ≤ b.toNat ∧ b.toNat ≤ 4 ∧
      v.targetSpeed = b.toUInt32 ∧ 1 ≤ n ∧ n ≤ 10 ∧
      queries acts = frame 0x99 [b] :: List.replicate n (frame 0x0B []) ++ [frame 0xCD []] ∧
      ∃ pre mid post p f g, acts = pre ++ .load .profiles p :: mid ++
          [.load .fans f, .load .fans g] ++ post ∧
        queries pre = [frame 0x99 [b]] ∧ queries post = [frame 0xCD []] ∧
        (f.val.inPercent, g.val.outPercent) = profileOf p.val b.toNat) ∧
    (((∃ v, x = .ok v ∧ v.modified = false) ∨ ∃ arg, x = .err (.invalidArgument arg)) →
      written acts = []) := by
  have hx := speed_answered h ha
  generalize actsOf (.client i) s.sh.trace = acts at hx
  simp only
  cases hx with
  | rejected t c b e hmm => exact ⟨fun v hv => (by cases hv), fun _ => rfl⟩
  | same t c stop hmm => exact ⟨fun v hv hm => (by cases hv; cases hm), fun _ => rfl⟩
  | setFailed t c m sa e hmm hne hs =>
    exact ⟨fun v hv => (by cases hv), by rintro (⟨_, h, -⟩ | ⟨_, h⟩) <;> cases h⟩
  | noTarget t c m sa p e hmm hne hs hl =>
    exact ⟨fun v hv => (by cases hv), by rintro (⟨_, h, -⟩ | ⟨_, h⟩) <;> cases h⟩
  | pollFailed t c m sa p x y pa e hmm hne hs hl hpo =>
    exact ⟨fun v hv => (by cases hv), by rintro (⟨_, h, -⟩ | ⟨_, h⟩) <;> cases h⟩
  | set t c m sa p x y pa u stop hmm hne hs hl hpo hu =>
    obtain ⟨m1, m4⟩ := modify_ok hmm
    refine ⟨fun v hv _ => ?_, by rintro (⟨_, h, h'⟩ | ⟨_, h⟩) <;> cases h; cases h'⟩
    cases hv
    obtain ⟨k, k1, k2, k3, -⟩ := queries_poll hpo
    have qs := queries_set_speed m4 hs
    have qu : queries u = [frame 0xCD []] := queries_forced hu
    refine ⟨m, k, m1, m4, rfl, k3 rfl, k1, ?_, ?_⟩
    · have : queries (Act.now t :: .lock .fan :: .load .profiles c :: (sa ++
        .rlock (.cache .profiles) :: .load .profiles p :: .runlock (.cache .profiles) ::
          (pa ++ u ++ [.now stop, .unlock .fan]))) = queries (sa ++ ([.rlock (.cache .profiles),
            .load .profiles p, .runlock (.cache .profiles)] ++
              (pa ++ u ++ [.now stop, .unlock .fan]))) := rfl
      rw [this, queries_append, queries_append, queries_append, queries_append, qs, qu, k2]
      simp [queries, written]
    · obtain ⟨pre, f, g, rfl, hf, hg⟩ := poll_last hpo
      refine ⟨.now t :: .lock .fan :: .load .profiles c :: (sa ++ [.rlock (.cache .profiles)]),
        .runlock (.cache .profiles) :: pre, u ++ [.now stop, .unlock .fan], p, f, g, by simp, ?_, ?_, ?_⟩
      · have : queries (Act.now t :: .lock .fan :: .load .profiles c ::
          (sa ++ [.rlock (.cache .profiles)])) = queries (sa ++ [.rlock (.cache .profiles)]) := rfl
        rw [this, queries_append, qs]; rfl
      · rw [queries_append, qu]; rfl
      · rw [lookup_ok p.val m1 m4] at hl
        rw [Prod.mk.injEq] at hl
        rw [hf, hg, hl.1]

/-! ## C43, C44 -/

/-- **C43**, the true part, in every interleaving: a `SetFanProfile` request is answered with
InvalidArgument exactly if the lowest byte of Mode is not 1 to 4 or that of TargetSpeed not 15 to
100, and then nothing was written. *Missing from the full property:* larger values with such a lowest
byte, see `C43_profile_args_rejected_violated`. -/
theorem C43_request_partial {S : Setup σ} {w : World σ} {s : Sys σ}
    (h : Reachable S (Sys.initial w) s) {i : Nat} {m t : UInt32}
    {x : Rpc SpeedModified} (ha : Answered s i (.setProfile m t) (.speed x)) :
    ((∃ arg, x = .err (.invalidArgument arg)) ↔ ¬ (1 ≤ m.toNat % 256 ∧ m.toNat % 256 ≤ 4) ∨
      ¬ (15 ≤ t.toNat % 256 ∧ t.toNat % 256 ≤ 100)) ∧
    ((∃ arg, x = .err (.invalidArgument arg)) → written (actsOf (.client i) s.sh.trace) = []) := by
  have hx := profile_answered h ha
  have em : m.toUInt8.toNat = m.toNat % 256 := by simp
  have et : t.toUInt8.toNat = t.toNat % 256 := by simp
  have c1 : (1 : UInt8).toNat = 1 := rfl
  have c4 : (4 : UInt8).toNat = 4 := rfl
  have c15 : (15 : UInt8).toNat = 15 := rfl
  have c100 : (100 : UInt8).toNat = 100 := rfl
  have k1 : (m.toUInt8 < 1 ∨ m.toUInt8 > 4) ↔ ¬ (1 ≤ m.toNat % 256 ∧ m.toNat % 256 ≤ 4) := by
    rw [gt_iff_lt, u8_lt, u8_lt]; omega
  have k2 : (t.toUInt8 < 15 ∨ t.toUInt8 > 100) ↔ ¬ (15 ≤ t.toNat % 256 ∧ t.toNat % 256 ≤ 100) := by
    rw [gt_iff_lt, u8_lt, u8_lt]; omega
  rw [← k1, ← k2]
  generalize actsOf (.client i) s.sh.trace = acts at hx
  cases hx with
  | badMode t' h1 => exact ⟨⟨fun _ => .inl h1, fun _ => ⟨_, rfl⟩⟩, fun _ => rfl⟩
  | badSpeed t' h1 h2 => exact ⟨⟨fun _ => .inr h2, fun _ => ⟨_, rfl⟩⟩, fun _ => rfl⟩
  | same t' c stop h1 h2 h3 =>
    exact ⟨⟨fun ⟨_, h⟩ => (by cases h), fun h => h.elim (absurd · h1) (absurd · h2)⟩,
      fun ⟨_, h⟩ => by cases h⟩
  | setFailed t' c sa e h1 h2 h3 h4 =>
    exact ⟨⟨fun ⟨_, h⟩ => (by cases h), fun h => h.elim (absurd · h1) (absurd · h2)⟩,
      fun ⟨_, h⟩ => by cases h⟩
  | set t' c sa u stop h1 h2 h3 h4 h5 =>
    exact ⟨⟨fun ⟨_, h⟩ => (by cases h), fun h => h.elim (absurd · h1) (absurd · h2)⟩,
      fun ⟨_, h⟩ => by cases h⟩

theorem queries_fetch {id : CacheId} {acts : List Act} {r : CVal id × Option Err}
    (h : FetchActs id acts r) : queries acts = [frame (requestCode id) []] := by
  obtain ⟨q, e, h, -⟩ := h
  exact queries_query h

/-- **C44** in every interleaving, for arguments in range. If the request reports no change it has
written nothing, and the in-percentage it had seen in the cache was the target. If it reports a
change, it has read the profiles, written them back with exactly the in and out percentages of the
mode replaced, and read them again. If it fails, it has read the profiles, and at most written them
back in this way. The answer carries the in-percentage seen in the cache and the target. -/
theorem C44_request {S : Setup σ} {w : World σ} {s : Sys σ}
    (h : Reachable S (Sys.initial w) s) {i : Nat} {m t : UInt32}
    (hm : 1 ≤ m.toNat ∧ m.toNat ≤ 4) (ht : 15 ≤ t.toNat ∧ t.toNat ≤ 100)
    {x : Rpc SpeedModified} (ha : Answered s i (.setProfile m t) (.speed x)) :
    ∃ (start : Int) (c : Entry FanProfiles) (rest : List Act),
      actsOf (.client i) s.sh.trace = .now start :: .lock .fan :: .load .profiles c :: rest ∧
      let wrote := fun q : FanProfiles =>
        frame 0xCF (replaceMode (m.toNat - 1) (UInt8.ofNat t.toNat) (percentages q))
      ((profileOf c.val m.toNat).1.toNat = t.toNat → queries rest = [] ∧
        ∃ rt, x = .ok ⟨false, t, t, rt⟩) ∧
      ((profileOf c.val m.toNat).1.toNat ≠ t.toNat →
        (∃ q rt, queries rest = [frame 0xCD [], wrote q, frame 0xCD []] ∧
          x = .ok ⟨true, (profileOf c.val m.toNat).1.toUInt32, t, rt⟩) ∨
        (∃ e, x = .err (.internal (.lib e)) ∧ (queries rest = [frame 0xCD []] ∨
          ∃ q, queries rest = [frame 0xCD [], wrote q]))) := by
  have hx := profile_answered h ha
  have em : m.toUInt8.toNat = m.toNat := by simp; omega
  have et : t.toUInt8.toNat = t.toNat := by simp; omega
  have et' : t.toUInt8 = UInt8.ofNat t.toNat := by rw [u8_ext, et]; simp; omega
  have e32 : t.toUInt8.toUInt32 = t := by apply UInt32.toNat_inj.1; simp; omega
  have em1 : (m.toUInt8 - 1).toNat = m.toNat - 1 := by
    have : (1 : UInt8) ≤ m.toUInt8 := by rw [UInt8.le_iff_toNat_le, em]; exact hm.1
    rw [UInt8.toNat_sub_of_le _ _ this, em]; rfl
  have c1 : (1 : UInt8).toNat = 1 := rfl
  have c4 : (4 : UInt8).toNat = 4 := rfl
  have c15 : (15 : UInt8).toNat = 15 := rfl
  have c100 : (100 : UInt8).toNat = 100 := rfl
  have c3 : (3 : UInt8).toNat = 3 := rfl
  have k1 : ¬ (m.toUInt8 < 1 ∨ m.toUInt8 > 4) := by rw [gt_iff_lt, u8_lt, u8_lt]; omega
  have k2 : ¬ (t.toUInt8 < 15 ∨ t.toUInt8 > 100) := by rw [gt_iff_lt, u8_lt, u8_lt]; omega
  have hin : ∀ p : FanProfiles, inOf p (m.toUInt8 - 1) = (profileOf p m.toNat).1 := by
    intro p
    rw [← em]
    rcases speed_cases (m := m.toUInt8) (by omega) (by omega) with e | e | e | e <;> rw [e] <;> rfl
  have hpa : ∀ {sa : List Act} {e : Option Err}, ProfileActs (m.toUInt8 - 1) t.toUInt8 sa e →
      (e ≠ none ∧ queries sa = [frame 0xCD []]) ∨ ∃ q, queries sa = [frame 0xCD [],
        frame 0xCF (replaceMode (m.toNat - 1) (UInt8.ofNat t.toNat) (percentages q))] := by
    intro sa e hp
    cases hp with
    | badMode hb => exfalso; revert hb; rw [gt_iff_lt, u8_lt]; omega
    | badSpeed _ hb => exfalso; revert hb; rw [gt_iff_lt, u8_lt]; omega
    | getFailed fa v e _ _ hf =>
      refine .inl ⟨by simp, ?_⟩
      have : queries (Act.lock .am :: (fa ++ [.unlock .am])) = queries (fa ++ [.unlock .am]) := rfl
      rw [this, queries_append, queries_fetch hf]; rfl
    | set fa sa v e _ _ hf hs =>
      refine .inr ⟨v, ?_⟩
      have : queries (Act.lock .am :: (fa ++ sa ++ [.unlock .am])) =
        queries (fa ++ sa ++ [.unlock .am]) := rfl
      rw [this, queries_append, queries_append, queries_fetch hf]
      have hbin := patch_bytes (m.toUInt8 - 1) t.toUInt8 (by rw [em1]; omega) v
      rw [em1, et'] at hbin
      rcases queries_set hs with ⟨bin, h1, h2⟩ | ⟨⟨bin, e', h1⟩, -⟩
      · rw [et', hbin] at h1
        cases h1
        rw [h2]; rfl
      · rw [et', hbin] at h1; cases h1
  generalize actsOf (.client i) s.sh.trace = acts at hx
  cases hx with
  | badMode t' h1 => exact absurd h1 k1
  | badSpeed t' h1 h2 => exact absurd h2 k2
  | same t' c stop h1 h2 h3 =>
    rw [hin] at h3 ⊢
    refine ⟨t', c, _, rfl, fun _ => ⟨rfl, _, by rw [h3, e32]⟩, fun hne => ?_⟩
    rw [h3, et] at hne; exact absurd rfl hne
  | setFailed t' c sa e h1 h2 h3 h4 =>
    rw [hin] at h3
    refine ⟨t', c, _, rfl, fun he => absurd (u8_ext.2 (he.trans et.symm)) h3, fun _ => .inr
      ⟨e, rfl, ?_⟩⟩
    rw [queries_append]
    rcases hpa h4 with ⟨-, h⟩ | ⟨q, h⟩ <;> rw [h]
    · exact .inl rfl
    · exact .inr ⟨q, rfl⟩
  | set t' c sa u stop h1 h2 h3 h4 h5 =>
    rw [hin] at h3 ⊢
    refine ⟨t', c, _, rfl, fun he => absurd (u8_ext.2 (he.trans et.symm)) h3, fun _ => .inl ?_⟩
    rcases hpa h4 with ⟨h, -⟩ | ⟨q, h⟩
    · exact absurd rfl h
    · refine ⟨q, _, ?_, rfl⟩
      rw [queries_append, queries_append, h, queries_forced h5]
      rfl

/-! ## C45 -/

/-- **C45**, the true part, in every interleaving, for whatever comfort temperature `c` the request
saw in the cache, if it is not negative: above 255, InvalidArgument and nothing written; if `c` is
the requested value, success without modification and nothing written; if it is another and the
request above 107, an internal error and nothing written; else the comfort command with that
temperature is written, and if that succeeded the temperatures are read again, and a modification
from `c` to the requested value is reported. *Missing from the full property:* a negative value in
the cache, see `C45_comfort_violated`. -/
theorem C45_request_partial {S : Setup σ} {w : World σ} {s : Sys σ}
    (h : Reachable S (Sys.initial w) s) {i : Nat} {v : UInt32}
    {x : Rpc ComfortModified} (ha : Answered s i (.setComfort v) (.comfort x)) :
    ∃ (start : Int) (c : Entry Temps) (rest : List Act),
      actsOf (.client i) s.sh.trace = .now start :: .load .temps c :: rest ∧
      (255 < v.toNat → (∃ arg, x = .err (.invalidArgument arg)) ∧ written rest = []) ∧
      (0 ≤ c.val.comfort → c.val.comfort ≤ 107 → v.toNat ≤ 255 →
        ((v.toNat : Int) = c.val.comfort → written rest = [] ∧ ∃ rt, x = .ok ⟨false, v, v, rt⟩) ∧
        ((v.toNat : Int) ≠ c.val.comfort → 107 < v.toNat →
          (∃ e, x = .err (.internal e)) ∧ written rest = []) ∧
        ((v.toNat : Int) ≠ c.val.comfort → v.toNat ≤ 107 → ∃ b : UInt8, degrees b = v.toNat ∧
          ((queries rest = [frame 0xD3 [b]] ∧ ∃ e, x = .err (.internal (.lib e))) ∨
            (queries rest = [frame 0xD3 [b], frame 0xD1 []] ∧
              ∃ (o : UInt32) (rt : Int), (o.toNat : Int) = c.val.comfort ∧
                x = .ok ⟨true, o, v, rt⟩)))) := by
  have hx := comfort_answered h ha
  generalize actsOf (.client i) s.sh.trace = acts at hx
  have e8 : v.toUInt8.toNat = v.toNat % 256 := by simp
  have c255 : (255 : UInt32).toNat = 255 := rfl
  have hgt : v > 255 ↔ 255 < v.toNat := by rw [gt_iff_lt, UInt32.lt_iff_toNat_lt, c255]
  have hbin : v.toNat ≤ 107 → (SetRequest.comfort (v.toUInt8.toNat : Int)).marshalBinary =
      ([UInt8.ofNat ((v.toNat + 20) * 2)], none) := by
    intro h107
    simp only [SetRequest.marshalBinary, temperatureMarshal]
    rw [if_neg (by omega), if_neg (by omega), e8]
    simp only [Prod.mk.injEq, and_true, List.cons.injEq]
    congr 1
    omega
  have hbig : 107 < v.toNat → v.toNat ≤ 255 →
      (SetRequest.comfort (v.toUInt8.toNat : Int)).marshalBinary = ([], some .tooHigh) := by
    intro h1 h2
    simp only [SetRequest.marshalBinary, temperatureMarshal, e8]
    rw [if_pos (by omega)]
  have hdeg : v.toNat ≤ 107 → degrees (UInt8.ofNat ((v.toNat + 20) * 2)) = v.toNat := by
    intro h; unfold degrees; simp; omega
  have same : ∀ {c : Int}, 0 ≤ c → c ≤ 107 → v.toNat ≤ 255 →
      (S.cv.u8 c = v.toUInt8 ↔ (v.toNat : Int) = c) := by
    intro c h0 h1 h2
    have k8 := S.cv.u8_ok c h0 (by omega)
    rw [u8_ext, e8]
    omega
  have hset : ∀ {sa : List Act} {e : Option Err},
      SetActs (.comfort (v.toUInt8.toNat : Int)) sa e →
      (v.toNat ≤ 107 → queries sa = [frame 0xD3 [UInt8.ofNat ((v.toNat + 20) * 2)]]) ∧
      (107 < v.toNat → v.toNat ≤ 255 → e ≠ none ∧ sa = []) := by
    intro sa e hs
    rcases queries_set hs with ⟨bin, h1, h2⟩ | ⟨⟨bin, e', h1⟩, h2, h3⟩
    · refine ⟨fun hv => ?_, fun hv hv' => ?_⟩
      · rw [hbin hv] at h1; cases h1; exact h2
      · rw [hbig hv hv'] at h1; cases h1
    · refine ⟨fun hv => ?_, fun _ _ => ⟨h2, h3⟩⟩
      rw [hbin hv] at h1; cases h1
  cases hx with
  | rejected t c hv =>
    exact ⟨t, c, _, rfl, fun _ => ⟨⟨_, rfl⟩, rfl⟩, fun _ _ hle => absurd (hgt.1 hv) (by omega)⟩
  | same t c stop hv he =>
    refine ⟨t, c, _, rfl, fun h => absurd (hgt.2 h) hv, fun h0 h1 h2 => ?_⟩
    have heq := (same h0 h1 h2).1 he
    refine ⟨fun _ => ⟨rfl, timeSub stop t, ?_⟩, fun hne => absurd heq hne, fun hne => absurd heq hne⟩
    have : S.cv.u32 c.val.comfort = v := by
      have k32 := S.cv.u32_ok c.val.comfort h0 (by omega)
      apply UInt32.toNat_inj.1; omega
    rw [this]
  | setFailed t c sa e hv he hs =>
    refine ⟨t, c, _, rfl, fun h => absurd (hgt.2 h) hv, fun h0 h1 h2 => ?_⟩
    refine ⟨fun h => absurd ((same h0 h1 h2).2 h) he, fun _ h3 => ⟨⟨_, rfl⟩, ?_⟩,
      fun _ h3 => ⟨_, hdeg h3, .inl ⟨?_, e, rfl⟩⟩⟩
    · rw [((hset hs).2 h3 h2).2]; rfl
    · have : queries (Act.lock .temp :: (sa ++ [.unlock .temp])) = queries (sa ++ [.unlock .temp]) := rfl
      rw [this, queries_append, (hset hs).1 h3]; rfl
  | set t c sa u stop hv he hs hu =>
    refine ⟨t, c, _, rfl, fun h => absurd (hgt.2 h) hv, fun h0 h1 h2 => ?_⟩
    refine ⟨fun h => absurd ((same h0 h1 h2).2 h) he,
      fun _ h3 => absurd rfl ((hset hs).2 h3 h2).1,
      fun _ h3 => ⟨_, hdeg h3, .inr ⟨?_, S.cv.u32 c.val.comfort, timeSub stop t, ?_, rfl⟩⟩⟩
    · have : queries (Act.lock .temp :: (sa ++ u ++ [.now stop, .unlock .temp])) =
        queries (sa ++ u ++ [.now stop, .unlock .temp]) := rfl
      rw [this, queries_append, queries_append, (hset hs).1 h3, queries_forced hu]; rfl
    · exact S.cv.u32_ok c.val.comfort h0 (by omega)

/-! ## The hypotheses are met -/

/-- Two clients at the same time, the first with Abs = 5, the second with Mode 0. -/
example : (Sys.execs demo ([.arrive (.setSpeed 5 false), .arrive (.setProfile 0 40)] ++
      [.go (.client 0), .go (.client 1)] ++ steps 3 (.client 0))
    (Sys.initial (stepStart 1))).any (fun (s : Sys UInt8) =>
      match s.clients.map Client.prog with
      | [.ret (.speed (.err (.invalidArgument a))), .ret (.speed (.err (.invalidArgument b)))] =>
        a == .speedRange 5 && b == .modeRange
      | _ => false) = true := by
  set_option maxRecDepth 8000 in decide

/-- A step up, a comfort temperature and a profile, each with what it writes. -/
example :
    (Sys.execs demo ([.arrive (.setSpeed 0 true)] ++ steps 35 (.client 0))
      (Sys.initial (stepStart 1))).any (fun (s : Sys UInt8) =>
        (match s.clients.map Client.prog with
          | [.ret (.speed (.ok m))] => m.modified
          | _ => false) &&
        queries (actsOf (.client 0) s.sh.trace) == [frame 0x99 [2], frame 0x0B [], frame 0xCD []]) =
      true ∧
    (Sys.execs demo ([.arrive (.setComfort 25)] ++ steps 20 (.client 0))
      (Sys.initial (stepStart 1))).any (fun (s : Sys UInt8) =>
        (match s.clients.map Client.prog with
          | [.ret (.comfort (.ok m))] => m.modified
          | _ => false) &&
        queries (actsOf (.client 0) s.sh.trace) == [frame 0xD3 [90], frame 0xD1 []]) = true ∧
    (Sys.execs demo ([.arrive (.setProfile 1 40)] ++ steps 27 (.client 0))
      (Sys.initial (stepStart 1))).any (fun (s : Sys UInt8) =>
        (match s.clients.map Client.prog with
          | [.ret (.speed (.ok m))] => m.modified
          | _ => false) &&
        queries (actsOf (.client 0) s.sh.trace) ==
          [frame 0xCD [], frame 0xCF [40, 35, 55, 40, 30, 50, 75, 70], frame 0xCD []]) = true := by
  set_option maxRecDepth 8000 in decide

end Comfo.Props
