import Verif.Props.Client
import Verif.Spec.Polling
/-!
# Polling within a request, in every interleaving: C48
-/
namespace Comfo.Props
open Spec

theorem fanQueries_append (a b : List Act) : fanQueries (a ++ b) = fanQueries a + fanQueries b := by
  simp [fanQueries, written_append]

theorem fanQueries_cons (a : Act) (b : List Act) :
    fanQueries (a :: b) = fanQueries [a] + fanQueries b := by
  rw [← fanQueries_append]; rfl

theorem pauses_append (a b : List Act) : pauses (a ++ b) = pauses a ++ pauses b := by
  simp [pauses]

theorem fanQueries_other {acts : List Act} (h : ∀ bs ∈ written acts, bs ≠ frame 0x0B []) :
    fanQueries acts = 0 := List.count_eq_zero.2 fun hm => h _ hm rfl

theorem fanQueries_query {cmd : UInt8} {data : List UInt8} {e : Bool} {acts : List Act}
    {r : Packet × Option Err} (h : QueryActs cmd data e acts r) (hc : cmd ≠ 0x0B) :
    fanQueries acts = 0 := by
  refine fanQueries_other fun bs hb => ?_
  rcases written_query h bs hb with rfl | rfl
  · exact fun h => hc (frame_cmd h)
  · exact (frame_ne_ack _ _).symm

theorem pauses_query {cmd : UInt8} {data : List UInt8} {e : Bool} {acts : List Act}
    {r : Packet × Option Err} (h : QueryActs cmd data e acts r) : pauses acts = [] := by
  obtain ⟨evs, ht, rfl⟩ := h
  cases ht <;> rfl

theorem fanQueries_fans {acts : List Act} {r : Packet × Option Err}
    (h : QueryActs 0x0B [] true acts r) : fanQueries acts = 1 := by
  obtain ⟨evs, ht, rfl⟩ := h
  have h1 : List.count (frame 0x0B []) [frame 0x0B []] = 1 := by decide
  have h2 : List.count (frame 0x0B []) [frame 0x0B [], ack] = 1 := by decide
  have e : written (.lock .pm :: evs.map toAct ++ [.unlock .pm]) = [frame 0x0B []] ∨
      written (.lock .pm :: evs.map toAct ++ [.unlock .pm]) = [frame 0x0B [], ack] := by
    cases ht <;> simp [written, toAct]
  unfold fanQueries
  rcases e with e | e <;> rw [e] <;> assumption

theorem fanQueries_forced {id : CacheId} {acts : List Act} (h : ForcedActs id acts) :
    fanQueries acts = (if id = .fans then 1 else 0) ∧ pauses acts = [] := by
  obtain ⟨t, ra, ⟨qa, q, e, hq, rfl⟩, rfl⟩ := h
  have hw : written (.lock (.cache id) :: .now t :: (.note id t :: qa ++
      (match outcome id q e with | some v => [.store id ⟨v, t⟩] | none => []) ++
        [.unlock (.cache id)])) = written qa := by
    cases outcome id q e <;> simp [written]
  have hp : pauses (.lock (.cache id) :: .now t :: (.note id t :: qa ++
      (match outcome id q e with | some v => [.store id ⟨v, t⟩] | none => []) ++
        [.unlock (.cache id)])) = pauses qa := by
    cases outcome id q e <;> simp [pauses]
  refine ⟨(congrArg (List.count (frame 0x0B [])) hw).trans ?_, hp.trans (pauses_query hq)⟩
  cases id with
  | fans => exact fanQueries_fans hq
  | _ => exact fanQueries_query hq (by decide)

/-- At most `n` queries; failure after exactly `n` queries with a pause after each; success after
at least one. -/
theorem poll_counts {a b : UInt8} {n : Nat} {acts : List Act} {r : Option SrvErr}
    (h : PollActs a b n acts r) : fanQueries acts ≤ n ∧ (r = none → 1 ≤ fanQueries acts) ∧
      (∀ e, r = some e → e = .pollFailed ∧ fanQueries acts = n ∧
        pauses acts = List.replicate n 500000000) ∧
      (r = none → fanQueries acts = (pauses acts).length + 1) := by
  induction h with
  | zero => exact ⟨Nat.le_refl _, fun h => (by cases h), fun e h => (by cases h; exact ⟨rfl, rfl, rfl⟩),
      fun h => (by cases h)⟩
  | hit n u f g hu h1 h2 =>
    obtain ⟨e1, e2⟩ := fanQueries_forced hu
    have e3 : fanQueries [Act.load .fans f, .load .fans g] = 0 := rfl
    have e4 : pauses [Act.load .fans f, .load .fans g] = [] := rfl
    rw [fanQueries_append, pauses_append, e1, e2, e3, e4]
    exact ⟨by simp, fun _ => by simp, fun e h => (by cases h), fun _ => by simp⟩
  | missIn n u rest res f hu hf hp ih =>
    obtain ⟨e1, e2⟩ := fanQueries_forced hu
    obtain ⟨i1, i2, i3, i4⟩ := ih
    have e3 : fanQueries (Act.load .fans f :: .sleep 500000000 :: rest) = fanQueries rest := rfl
    have e4 : pauses (Act.load .fans f :: .sleep 500000000 :: rest) = 500000000 :: pauses rest := rfl
    rw [fanQueries_append, pauses_append, e1, e2, e3, e4]
    simp only [if_true, List.nil_append, List.length_cons]
    refine ⟨by omega, fun _ => by omega, fun e h => ?_, fun h => by have := i4 h; omega⟩
    obtain ⟨j1, j2, j3⟩ := i3 e h
    exact ⟨j1, by omega, by rw [j3]; rfl⟩
  | missOut n u rest res f g hu hf hg hp ih =>
    obtain ⟨e1, e2⟩ := fanQueries_forced hu
    obtain ⟨i1, i2, i3, i4⟩ := ih
    have e3 : fanQueries (Act.load .fans f :: .load .fans g :: .sleep 500000000 :: rest) =
      fanQueries rest := rfl
    have e4 : pauses (Act.load .fans f :: .load .fans g :: .sleep 500000000 :: rest) =
      500000000 :: pauses rest := rfl
    rw [fanQueries_append, pauses_append, e1, e2, e3, e4]
    simp only [if_true, List.nil_append, List.length_cons]
    refine ⟨by omega, fun _ => by omega, fun e h => ?_, fun h => by have := i4 h; omega⟩
    obtain ⟨j1, j2, j3⟩ := i3 e h
    exact ⟨j1, by omega, by rw [j3]; rfl⟩

theorem set_counts {m : UInt8} {acts : List Act} {e : Option Err} (h : SetActs (.speed m) acts e) :
    fanQueries acts = 0 ∧ pauses acts = [] := by
  rcases h with ⟨bin, q, -, h⟩ | ⟨rfl, -⟩
  · exact ⟨fanQueries_query h (by simp [SetRequest.requestType]), pauses_query h⟩
  · exact ⟨rfl, rfl⟩

/-- **C48** within a request, in every interleaving. A `SetFanSpeed` request asks for the state of
the fans at most 10 times, and only if a speed command was written and answered before. It reports
that polling failed only after exactly 10 queries, with a pause of half a second after each. If it
reports a modification it has asked at least once, and has stopped without a pause after the last
query. -/
theorem C48_request {S : Setup σ} {w : World σ} {s : Sys σ} (h : Reachable S (Sys.initial w) s)
    {i : Nat} {abs : UInt32} {rel : Bool} {x : Rpc SpeedModified}
    (ha : Answered s i (.setSpeed abs rel) (.speed x)) :
    let acts := actsOf (.client i) s.sh.trace
    fanQueries acts ≤ 10 ∧
    (0 < fanQueries acts → ∃ (m : UInt8) (pre post : List Act), acts = pre ++ post ∧
      Commanded (frame 0x99 [m]) pre ∧ fanQueries pre = 0) ∧
    (x = .err (.internal .pollFailed) → fanQueries acts = 10 ∧
      pauses acts = List.replicate 10 500000000) ∧
    (∀ v, x = .ok v → v.modified = true → 1 ≤ fanQueries acts ∧
      fanQueries acts = (pauses acts).length + 1) := by
  have hp := Prog.Post.answered (c := .setSpeed abs rel)
    (P := fun acts r => ∃ x, r = .speed x ∧ SpeedActs abs rel acts x)
    ((post_setFanSpeed abs rel).mono (fun _ x hx => ⟨x, rfl, hx⟩)).map h ha
  obtain ⟨x', e, hx⟩ := hp
  cases e
  generalize actsOf (.client i) s.sh.trace = acts at hx
  simp only
  have z : ∀ {acts : List Act} {x : Rpc SpeedModified}, fanQueries acts = 0 →
      x ≠ .err (.internal .pollFailed) → (∀ v, x = .ok v → v.modified = false) →
      fanQueries acts ≤ 10 ∧
      (0 < fanQueries acts → ∃ (m : UInt8) (pre post : List Act), acts = pre ++ post ∧
        Commanded (frame 0x99 [m]) pre ∧ fanQueries pre = 0) ∧
      (x = .err (.internal .pollFailed) → fanQueries acts = 10 ∧
        pauses acts = List.replicate 10 500000000) ∧
      (∀ v, x = .ok v → v.modified = true → 1 ≤ fanQueries acts ∧
        fanQueries acts = (pauses acts).length + 1) := by
    intro acts x h1 h2 h3
    refine ⟨by omega, fun h => by omega, fun h => absurd h h2, fun v hv hm => ?_⟩
    rw [h3 v hv] at hm; cases hm
  cases hx with
  | rejected t c b e hm =>
    refine z rfl ?_ (fun v hv => by cases hv)
    rintro ⟨⟩
    unfold modifySpeed at hm
    grind
  | same t c stop hm => exact z rfl (by simp) (fun v hv => by cases hv; rfl)
  | setFailed t c m sa e hm hne hs =>
    refine z ?_ (by simp) (fun v hv => by cases hv)
    have : fanQueries (Act.now t :: .lock .fan :: .load .profiles c :: (sa ++ [.unlock .fan])) =
      fanQueries (sa ++ [.unlock .fan]) := rfl
    rw [this, fanQueries_append, (set_counts hs).1]; rfl
  | noTarget t c m sa p e hm hne hs hl =>
    refine z ?_ (by simp) (fun v hv => by cases hv)
    have : fanQueries (Act.now t :: .lock .fan :: .load .profiles c ::
        (sa ++ [.rlock (.cache .profiles), .load .profiles p, .unlock .fan])) =
      fanQueries (sa ++ [.rlock (.cache .profiles), .load .profiles p, .unlock .fan]) := rfl
    rw [this, fanQueries_append, (set_counts hs).1]; rfl
  | pollFailed t c m sa p x y pa e hm hne hs hl hpo =>
    obtain ⟨s1, s2⟩ := set_counts hs
    obtain ⟨p1, -, p3, -⟩ := poll_counts hpo
    obtain ⟨rfl, p4, p5⟩ := p3 e rfl
    have e1 : fanQueries (Act.now t :: .lock .fan :: .load .profiles c :: (sa ++
        .rlock (.cache .profiles) :: .load .profiles p :: .runlock (.cache .profiles) ::
          (pa ++ [.unlock .fan]))) = 10 := by
      have : fanQueries (Act.now t :: .lock .fan :: .load .profiles c :: (sa ++
        .rlock (.cache .profiles) :: .load .profiles p :: .runlock (.cache .profiles) ::
          (pa ++ [.unlock .fan]))) = fanQueries (sa ++ ([.rlock (.cache .profiles),
            .load .profiles p, .runlock (.cache .profiles)] ++ (pa ++ [.unlock .fan]))) := rfl
      rw [this, fanQueries_append, fanQueries_append, fanQueries_append, s1, p4]; rfl
    have e2 : pauses (Act.now t :: .lock .fan :: .load .profiles c :: (sa ++
        .rlock (.cache .profiles) :: .load .profiles p :: .runlock (.cache .profiles) ::
          (pa ++ [.unlock .fan]))) = List.replicate 10 500000000 := by
      have : pauses (Act.now t :: .lock .fan :: .load .profiles c :: (sa ++
        .rlock (.cache .profiles) :: .load .profiles p :: .runlock (.cache .profiles) ::
          (pa ++ [.unlock .fan]))) = pauses (sa ++ ([.rlock (.cache .profiles),
            .load .profiles p, .runlock (.cache .profiles)] ++ (pa ++ [.unlock .fan]))) := rfl
      rw [this, pauses_append, pauses_append, pauses_append, s2, p5]; rfl
    refine ⟨by omega, fun _ => ⟨m, .now t :: .lock .fan :: .load .profiles c :: sa, _,
      by simp only [List.cons_append]; rfl, ?_, ?_⟩, fun _ => ⟨e1, e2⟩, fun v hv => by cases hv⟩
    · obtain ⟨pre, n, q, post, rfl⟩ := set_commanded hs
      exact ⟨.now t :: .lock .fan :: .load .profiles c :: pre, n, _, q, post, rfl⟩
    · exact s1
  | set t c m sa p x y pa u stop hm hne hs hl hpo hu =>
    obtain ⟨s1, s2⟩ := set_counts hs
    obtain ⟨p1, p2, -, p4⟩ := poll_counts hpo
    obtain ⟨u1, u2⟩ := fanQueries_forced hu
    rw [if_neg (by decide)] at u1
    have e1 : fanQueries (Act.now t :: .lock .fan :: .load .profiles c :: (sa ++
        .rlock (.cache .profiles) :: .load .profiles p :: .runlock (.cache .profiles) ::
          (pa ++ u ++ [.now stop, .unlock .fan]))) = fanQueries pa := by
      have : fanQueries (Act.now t :: .lock .fan :: .load .profiles c :: (sa ++
        .rlock (.cache .profiles) :: .load .profiles p :: .runlock (.cache .profiles) ::
          (pa ++ u ++ [.now stop, .unlock .fan]))) = fanQueries (sa ++ ([.rlock (.cache .profiles),
            .load .profiles p, .runlock (.cache .profiles)] ++
              (pa ++ u ++ [.now stop, .unlock .fan]))) := rfl
      rw [this, fanQueries_append, fanQueries_append, fanQueries_append, fanQueries_append, s1, u1]
      simp [fanQueries, written]
    have e2 : pauses (Act.now t :: .lock .fan :: .load .profiles c :: (sa ++
        .rlock (.cache .profiles) :: .load .profiles p :: .runlock (.cache .profiles) ::
          (pa ++ u ++ [.now stop, .unlock .fan]))) = pauses pa := by
      have : pauses (Act.now t :: .lock .fan :: .load .profiles c :: (sa ++
        .rlock (.cache .profiles) :: .load .profiles p :: .runlock (.cache .profiles) ::
          (pa ++ u ++ [.now stop, .unlock .fan]))) = pauses (sa ++ ([.rlock (.cache .profiles),
            .load .profiles p, .runlock (.cache .profiles)] ++
              (pa ++ u ++ [.now stop, .unlock .fan]))) := rfl
      rw [this, pauses_append, pauses_append, pauses_append, pauses_append, s2, u2]
      simp [pauses]
    rw [e1, e2]
    refine ⟨by omega, fun _ => ⟨m, .now t :: .lock .fan :: .load .profiles c :: sa, _,
      by simp only [List.cons_append]; rfl, ?_, ?_⟩, fun h => (by cases h),
      fun _ _ _ => ⟨p2 rfl, p4 rfl⟩⟩
    · obtain ⟨pre, n, q, post, rfl⟩ := set_commanded hs
      exact ⟨.now t :: .lock .fan :: .load .profiles c :: pre, n, _, q, post, rfl⟩
    · exact s1

/-- A request whose fans reach the target at once, and one whose fans never do. -/
example :
    ((Sys.execs demo ([.arrive (.setSpeed 0 true)] ++ steps 35 (.client 0))
      (Sys.initial (stepStart 1))).any fun (s : Sys UInt8) =>
        fanQueries (actsOf (.client 0) s.sh.trace) == 1 &&
        match s.clients.map Client.prog with
        | [.ret (.speed (.ok v))] => v.modified
        | _ => false) = true ∧
    ((Sys.execs demo ([.arrive (.setSpeed 3 false)] ++ steps 132 (.client 0))
      (Sys.initial demoStart)).any fun (s : Sys UInt8) =>
        fanQueries (actsOf (.client 0) s.sh.trace) == 10 &&
        match s.clients.map Client.prog with
        | [.ret (.speed (.err (.internal .pollFailed)))] => true
        | _ => false) = true := by
  set_option maxRecDepth 8000 in decide

end Comfo.Props
