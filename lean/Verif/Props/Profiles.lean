import Verif.Lemmas.Profiles
import Verif.Props.Sync
/-!
# Concurrent changes of the fan profiles: C28, C29

Stated for every unit that works as `Spec.ProfileUnit` says, every number of requests of every kind,
and every interleaving.
-/
namespace Comfo.Props
open Spec
open scoped List

/-! ## The examples' unit -/

/-- A unit that stores fan profiles and the fan speed. -/
structure Dev where
  /-- The 14 bytes of its fan-profile reply. -/
  payload : List UInt8
  last : List UInt8 := []
  took : Bool := false
  deriving DecidableEq

def pctOf (p : List UInt8) : List UInt8 :=
  [p.getD 0 0, p.getD 1 0, p.getD 2 0, p.getD 3 0, p.getD 4 0, p.getD 5 0, p.getD 10 0, p.getD 11 0]

def deviceLine : Line Dev where
  write bs s := ((bs.length, none),
    if bs = ack then s
    else match parseBody (bs.drop 2) with
      | some ((cmd, d), _) =>
        if cmd = 0xCF ∧ frame 0xCF d = bs ∧ pctOf (storeProfiles d s.payload) = d then
          { payload := storeProfiles d s.payload, last := bs, took := true }
        else if cmd = 0x99 then
          { payload := s.payload.set 8 (d.getD 0 0), last := bs, took := false }
        else { s with last := bs, took := false }
      | none => { s with last := bs, took := false })
  read e s :=
    let cmd := s.last.getD 3 0
    if cmd = 0xCF ∧ s.took = false then (.ret {} (some .timeout), s)
    else (.ret (if e then
      { command := cmd + 1, data := if cmd = 0xCD then s.payload else samplePayload cmd }
      else {}) none, s)

/-- Somebody changes the fan speed on the panel of the unit. -/
def panel (s s' : Dev) : Prop := ∃ m, s' = { s with payload := s.payload.set 8 m }

theorem pctOf_set (p : List UInt8) (m : UInt8) : pctOf (p.set 8 m) = pctOf p := by
  simp [pctOf, List.getD]

theorem doubled_inj {a b : List UInt8} (h : doubled a = doubled b) : a = b := by
  have key : ∀ x (l : List UInt8), doubled (x :: l) = if x = 7 then 7 :: 7 :: doubled l
      else x :: doubled l := by
    intro x l
    by_cases h : x = 7 <;> simp [doubled, h]
  induction a generalizing b with
  | nil =>
    cases b with
    | nil => rfl
    | cons y b => rw [key] at h; split at h <;> cases h
  | cons x a ih =>
    cases b with
    | nil => rw [key] at h; split at h <;> cases h
    | cons y b =>
      rw [key, key] at h
      by_cases hx : x = 7 <;> by_cases hy : y = 7
      · simp only [if_pos hx, if_pos hy, List.cons.injEq, true_and] at h
        rw [hx, hy, ih h]
      · simp only [if_pos hx, if_neg hy, List.cons.injEq] at h
        exact absurd h.1.symm hy
      · simp only [if_neg hx, if_pos hy, List.cons.injEq] at h
        exact absurd h.1 hx
      · simp only [if_neg hx, if_neg hy, List.cons.injEq] at h
        rw [h.1, ih h.2]

theorem frame_inj {c : UInt8} {a b : List UInt8} (h : frame c a = frame c b) : a = b := by
  unfold frame body at h
  have h1 := (List.append_inj' h rfl).1
  simp only [List.cons_append, List.nil_append, List.cons.injEq, true_and] at h1
  exact doubled_inj (List.append_inj' h1.2 rfl).1

/-- The examples' unit works. -/
def deviceUnit : ProfileUnit deviceLine panel where
  pct s := pctOf s.payload
  last s := s.last
  took s := s.took
  write_last := by
    intro bs s r s' h hb
    simp only [deviceLine, if_neg hb, Prod.mk.injEq] at h
    obtain ⟨-, rfl⟩ := h
    split
    · split
      · rfl
      · split <;> rfl
    · rfl
  write_set := by
    intro d s r s' h
    have hb : frame 0xCF d ≠ ack := frame_ne_ack _ _
    simp only [deviceLine, if_neg hb, Prod.mk.injEq] at h
    obtain ⟨-, rfl⟩ := h
    split
    · split
      · rename_i hc
        exact .inl ⟨hc.2.2.trans (frame_inj hc.2.1), rfl⟩
      · split
        · exact .inr ⟨pctOf_set _ _, rfl⟩
        · exact .inr ⟨rfl, rfl⟩
    · exact .inr ⟨rfl, rfl⟩
  write_other := by
    intro bs s r s' h hb
    simp only [deviceLine, Prod.mk.injEq] at h
    obtain ⟨-, rfl⟩ := h
    split
    · rfl
    · split
      · split
        · rename_i hc
          exact absurd hc.2.1.symm (hb _)
        · split
          · exact pctOf_set _ _
          · rfl
      · rfl
  read_pct := by
    intro e s r s' h
    simp only [deviceLine] at h
    split at h <;> cases h <;> rfl
  read_ack := by
    intro e s q s' d h hl
    simp only [deviceLine] at h
    split at h
    · cases h
    · rename_i hc
      have : s.last.getD 3 0 = 0xCF := by rw [hl]; rfl
      cases ht : s.took with
      | true => rfl
      | false => exact absurd ⟨this, ht⟩ hc
  read_reply := by
    intro s q s' fp h hl hq hd
    have hlast : s.last.getD 3 0 = 0xCD := by rw [hl]; rfl
    simp only [deviceLine, hlast] at h
    simp at h
    obtain ⟨rfl, -⟩ := h
    simp only [decode] at hd
    obtain ⟨pl, l, t⟩ := s
    by_cases hlen : pl.length = 14
    · match pl, hlen with
      | [a, b, c, d, e, f, g, i, j, k, m, n, o, p], _ =>
        simp only [profiles_list, okVal] at hd
        cases hd; rfl
    · have : ∃ v e, FanProfiles.unmarshalBinary pl = .ret v (some e) := by
        unfold FanProfiles.unmarshalBinary
        simp [hlen]
      obtain ⟨v, e, hu⟩ := this
      simp only [hu, okVal] at hd
      cases hd
  env_same := by
    rintro s s' ⟨m, rfl⟩
    exact ⟨pctOf_set _ _, rfl, rfl⟩

/-- The examples' unit with all requests. -/
def device : Setup Dev where
  cv := amd64
  line := deviceLine
  env := panel

/-- Without requests that overwrite all fan profiles. -/
def careful : Setup Dev := { device with calls := fun c => ¬ overwrites c }

def deviceStart : World Dev :=
  { line := { payload := [15, 35, 55, 15, 30, 50, 30, 35, 2, 1, 75, 70, 0, 0] } }

/-! ## C28 -/

theorem asks_change {c : Call} {g : G1} (hk : K1 c g) {ch : Change} (h : g.Asks ch) :
    change c = some ch := by
  obtain ⟨-, h2, h3⟩ := hk
  cases ch with
  | mode m v =>
    obtain ⟨m', h, rfl⟩ := h
    rw [h3] at h
    cases c <;> simp_all [Call.job, change]
  | all d =>
    have h : g.raw = some d := h
    rw [h2] at h
    cases c <;> simp_all [Call.sendsRaw, change]

theorem filterMap_fst {l : List (α × β)} {f : α → Option β} (h : ∀ x ∈ l, f x.1 = some x.2) :
    (l.map (·.1)).filterMap f = l.map (·.2) := by
  induction l with
  | nil => rfl
  | cons x l ih =>
    simp only [List.map_cons]
    rw [List.filterMap_cons_some (h x List.mem_cons_self),
      ih fun y hy => h y (List.mem_cons_of_mem _ hy)]

/-- What client number `i` asks to be changed. -/
def changeOf (s : Sys σ) (i : Nat) : Option Change := s.clients[i]?.bind fun c => change c.call

/-- The percentages of the unit are what some of the requests, executed one after the other in the
order in which their commands were written, have made of the initial ones; each counts at most once,
and all that reported success count. -/
def Serial {S : Setup σ} (U : ProfileUnit S.line S.env) (w : World σ) (s : Sys σ) : Prop :=
  ∃ order : List Nat, order.Nodup ∧ (∀ i ∈ order, (changeOf s i).isSome) ∧
    U.pct s.sh.world.line = applyAll (order.filterMap (changeOf s)) (U.pct w.line) ∧
    (∀ i c r, Answered s i c r → Changed c r → i ∈ order) ∧
    (order.map Tid.client) <+ setWriters s.sh.trace

theorem serial {S : Setup σ} (U : ProfileUnit S.line S.env) {w : World σ} {s : Sys σ}
    (h : Reachable S (Sys.initial w) s) (hno : NoOverlap s.sh.trace) : Serial U w s := by
  obtain ⟨g, hi⟩ := inv2 U h
  have hG : Glob2 S U (U.pct w.line) g s.sh := hi.glob
  obtain ⟨order, ho⟩ := hG.prof hno
  have hch : ∀ x ∈ order, changeOf s x.1 = some x.2 := by
    intro x hx
    obtain ⟨h1, h2⟩ := ho.edits x hx
    have hlt : x.1 < s.clients.length := by
      refine Classical.byContradiction fun hn => ?_
      have := hi.unborn x.1 (by omega)
      rw [this] at h2; cases h2
    have hget : s.clients[x.1]? = some s.clients[x.1] := List.getElem?_eq_getElem hlt
    rw [changeOf, hget]
    exact asks_change (hi.client _ _ hget).2 h1
  refine ⟨order.map (·.1), ho.nodup, ?_, ?_, ?_, ?_⟩
  · intro i hmem
    obtain ⟨x, hx, rfl⟩ := List.mem_map.mp hmem
    rw [hch x hx]; rfl
  · rw [filterMap_fst hch]; exact ho.pct
  · intro i c r ha hc
    obtain ⟨j, hj, e⟩ := ho.ok (.client i) ((hi.client i _ ha).1.changed hc)
    cases e; exact hj
  · rw [List.map_map]; exact ho.subl

/-- **C28** (1) As long as nobody overwrites all profiles at once, the unit's percentages are at all
times those of executing the `SetFanProfile` calls one after the other. -/
theorem C28_serial {S : Setup σ} (U : ProfileUnit S.line S.env)
    (hS : ∀ c, S.calls c → ¬ overwrites c) {w : World σ} {s : Sys σ}
    (h : Reachable S (Sys.initial w) s) : Serial U w s := by
  obtain ⟨g, hi⟩ := inv2 U h
  exact serial U h ((show Glob2 S U (U.pct w.line) g s.sh from hi.glob).calm hS).2

/-- Where the percentages of a mode are. -/
def entries : Nat → List Nat
  | 0 => [0, 3]
  | 1 => [1, 4]
  | 2 => [2, 5]
  | 3 => [6, 7]
  | _ => []

theorem replaceMode_same {m : Nat} {v : UInt8} {p : List UInt8} (hp : p.length = 8) :
    ∀ k ∈ entries m, (replaceMode m v p)[k]? = some v := by
  match p, hp with
  | [a, b, c, d, e, f, g, h], _ =>
    match m with
    | 0 | 1 | 2 | 3 => simp [entries, replaceMode]
    | n + 4 => simp [entries]

theorem replaceMode_other {m m' : Nat} {v : UInt8} {p : List UInt8} (hm : m' ≠ m) :
    ∀ k ∈ entries m, (replaceMode m' v p)[k]? = p[k]? := by
  match m, m' with
  | n + 4, _ => simp [entries]
  | 0, 0 | 1, 1 | 2, 2 | 3, 3 => exact absurd rfl hm
  | 0, 1 | 0, 2 | 0, 3 | 1, 0 | 1, 2 | 1, 3 | 2, 0 | 2, 1 | 2, 3 | 3, 0 | 3, 1 | 3, 2 =>
    simp [entries, replaceMode, List.getElem?_set]
  | _, n + 4 => simp [replaceMode]

theorem replaceMode_length (m : Nat) (v : UInt8) (p : List UInt8) :
    (replaceMode m v p).length = p.length := by
  unfold replaceMode; split <;> simp

theorem applyAll_entries {m : Nat} {v : UInt8} {cs : List Change} {p : List UInt8}
    (hp : p.length = 8) (hcs : ∀ c ∈ cs, ∃ m' v', c = .mode m' v')
    (hv : ∀ v', .mode m v' ∈ cs → v' = v)
    (h : .mode m v ∈ cs ∨ ∀ k ∈ entries m, p[k]? = some v) :
    ∀ k ∈ entries m, (applyAll cs p)[k]? = some v := by
  induction cs generalizing p with
  | nil =>
    rcases h with h | h
    · cases h
    · exact h
  | cons c cs ih =>
    obtain ⟨m', v', rfl⟩ := hcs c List.mem_cons_self
    refine ih (p := replaceMode m' v' p) (by rw [replaceMode_length, hp])
      (fun c hc => hcs c (List.mem_cons_of_mem _ hc))
      (fun v'' hc => hv v'' (List.mem_cons_of_mem _ hc)) ?_
    by_cases e : m' = m
    · subst e
      have := hv v' List.mem_cons_self
      subst this
      exact .inr (replaceMode_same hp)
    · rcases h with h | h
      · rcases List.mem_cons.mp h with h | h
        · cases h; exact absurd rfl e
        · exact .inl h
      · exact .inr fun k hk => (replaceMode_other e k hk).trans (h k hk)

theorem applyAll_untouched {m : Nat} {cs : List Change} {p : List UInt8}
    (hcs : ∀ c ∈ cs, ∃ m' v', c = .mode m' v' ∧ m' ≠ m) :
    ∀ k ∈ entries m, (applyAll cs p)[k]? = p[k]? := by
  induction cs generalizing p with
  | nil => intro k _; rfl
  | cons c cs ih =>
    obtain ⟨m', v', rfl, hne⟩ := hcs c List.mem_cons_self
    intro k hk
    exact (ih (p := replaceMode m' v' p) (fun c hc => hcs c (List.mem_cons_of_mem _ hc)) k hk).trans
      (replaceMode_other hne k hk)

theorem modes_only {S : Setup σ} (hS : ∀ c, S.calls c → ¬ overwrites c) {w : World σ} {s : Sys σ}
    (h : Reachable S (Sys.initial w) s) {i : Nat} {ch : Change} (hc : changeOf s i = some ch) :
    ∃ m v, ch = .mode m v := by
  obtain ⟨g, hi⟩ := inv1 h
  cases hget : s.clients[i]? with
  | none => rw [changeOf, hget] at hc; cases hc
  | some c =>
    rw [changeOf, hget] at hc
    cases ch with
    | mode m v => exact ⟨m, v, rfl⟩
    | all d => exact absurd ⟨d, hc⟩ (hS _ (hi.call i c hget))

/-- **C28** (2) The change a request reported as made is what the unit holds, unless another request
asked for a different percentage of the same mode: calls on different modes all take effect. -/
theorem C28_all_take_effect {S : Setup σ} (U : ProfileUnit S.line S.env)
    (hS : ∀ c, S.calls c → ¬ overwrites c) {w : World σ} (hw : (U.pct w.line).length = 8) {s : Sys σ}
    (h : Reachable S (Sys.initial w) s) {i : Nat} {c : Call} {r : Resp} (ha : Answered s i c r)
    (hc : Changed c r) {m : Nat} {v : UInt8} (hm : change c = some (.mode m v))
    (hother : ∀ j v', changeOf s j = some (.mode m v') → v' = v) :
    ∀ k ∈ entries m, (U.pct s.sh.world.line)[k]? = some v := by
  obtain ⟨order, -, h2, h3, h4, -⟩ := C28_serial U hS h
  rw [h3]
  have hi : changeOf s i = some (.mode m v) := by
    have ha' : s.clients[i]? = some { call := c, prog := .ret r } := ha
    rw [changeOf, ha']; exact hm
  refine applyAll_entries hw ?_ ?_ (.inl ?_)
  · intro ch hch
    obtain ⟨j, -, hj⟩ := List.mem_filterMap.mp hch
    exact modes_only hS h hj
  · intro v' hv
    obtain ⟨j, -, hj⟩ := List.mem_filterMap.mp hv
    exact hother j v' hj
  · exact List.mem_filterMap.mpr ⟨i, h4 i c r ha hc, hi⟩

/-- **C28** (3) A mode nobody asked to be changed keeps its percentages. -/
theorem C28_others_kept {S : Setup σ} (U : ProfileUnit S.line S.env)
    (hS : ∀ c, S.calls c → ¬ overwrites c) {w : World σ} {s : Sys σ}
    (h : Reachable S (Sys.initial w) s) {m : Nat}
    (hm : ∀ j v, changeOf s j ≠ some (.mode m v)) :
    ∀ k ∈ entries m, (U.pct s.sh.world.line)[k]? = (U.pct w.line)[k]? := by
  obtain ⟨order, -, -, h3, -, -⟩ := C28_serial U hS h
  rw [h3]
  refine applyAll_untouched ?_
  intro ch hch
  obtain ⟨j, -, hj⟩ := List.mem_filterMap.mp hch
  obtain ⟨m', v', rfl⟩ := modes_only hS h hj
  exact ⟨m', v', rfl, by rintro rfl; exact hm j v' hj⟩

/-- All requests have returned and reported their change as made. -/
def allChanged (s : Sys σ) : Bool :=
  s.clients.all fun c => match c.call, c.prog with
    | .libSetProfile _ _, .ret (.err none) => true
    | .setProfile _ _, .ret (.speed (.ok v)) => v.modified
    | .libSetProfiles _, .ret (.err none) => true
    | _, _ => false

/-- Three changes, two by the library and one by the RPC, whose steps alternate: all hypotheses are
met, and all three modes are changed. -/
example : ∃ s, Reachable careful (Sys.initial deviceStart) s ∧ (allChanged s &&
    pctOf s.sh.world.line.payload == [20, 40, 55, 20, 40, 50, 90, 90]) = true := by
  refine exec_witness deviceStart ([.arrive (.libSetProfile 1 40), .arrive (.setProfile 4 90),
      .arrive (.libSetProfile 0 20)] ++
    steps 3 (.client 1) ++ steps 4 (.client 0) ++ steps 2 (.client 0) ++ steps 6 (.client 0) ++
    steps 1 (.client 1) ++ steps 11 (.client 1) ++ steps 1 (.client 2) ++ steps 3 (.client 1) ++
    steps 5 (.client 2) ++ steps 6 (.client 1) ++ steps 6 (.client 2) ++ steps 3 (.client 1)) ?_ _ ?_
  · intro c hc
    simp [steps] at hc
    rcases hc with rfl | rfl | rfl <;> rintro ⟨d, hd⟩ <;> cases hd
  · decide

/-! ## C29 -/

/-- The profiles of the examples. -/
def otherProfiles : FanProfiles :=
  { outAway := 20, outLow := 21, outMid := 22, outHigh := 23, inAway := 24, inLow := 25, inMid := 26,
    inHigh := 27 }

/-- **C29** (violated) `SetFanProfile` of one mode reads the profiles, `SetFanProfiles` writes all of
them and reports success, `SetFanProfile` writes back what it has read with its mode changed and
reports success: what the unit holds is the result of neither order, all that `SetFanProfiles` had
written is lost. -/
theorem C29_violated : ∃ s, Reachable device (Sys.initial deviceStart) s ∧
    (∃ r₀, Answered s 0 (.libSetProfile 1 40) r₀ ∧ Changed (.libSetProfile 1 40) r₀) ∧
    (∃ r₁, Answered s 1 (.libSetProfiles otherProfiles) r₁ ∧
      Changed (.libSetProfiles otherProfiles) r₁) ∧
    s.clients.length = 2 ∧
    deviceUnit.pct s.sh.world.line = replaceMode 1 40 (deviceUnit.pct deviceStart.line) ∧
    ¬ Serial (S := device) deviceUnit deviceStart s := by
  obtain ⟨s, hs, ht⟩ := exec_witness (S := device) deviceStart
    ([.arrive (.libSetProfile 1 40), .arrive (.libSetProfiles otherProfiles)] ++
      steps 6 (.client 0) ++ steps 5 (.client 1) ++ steps 6 (.client 0)) (fun _ _ => trivial)
    (fun s => (match s.clients with
      | [⟨.libSetProfile 1 40, .ret (.err none)⟩, ⟨.libSetProfiles q, .ret (.err none)⟩] =>
        q == otherProfiles
      | _ => false) && pctOf s.sh.world.line.payload == [15, 40, 55, 15, 40, 50, 75, 70])
    (by decide)
  simp only [Bool.and_eq_true, beq_iff_eq] at ht
  obtain ⟨h1, h2⟩ := ht
  split at h1
  · rename_i q hc
    have hq : q = otherProfiles := by simpa using h1
    subst hq
    have a0 : Answered s 0 (.libSetProfile 1 40) (.err none) := by rw [Answered, hc]; rfl
    have a1 : Answered s 1 (.libSetProfiles otherProfiles) (.err none) := by rw [Answered, hc]; rfl
    refine ⟨s, hs, ⟨_, a0, trivial⟩, ⟨_, a1, trivial⟩, by rw [hc]; rfl, h2, ?_⟩
    rintro ⟨order, hn, hsome, hp, hall, -⟩
    have m0 := hall 0 _ _ a0 trivial
    have m1 := hall 1 _ _ a1 trivial
    have hlt : ∀ i ∈ order, i < 2 := by
      intro i hi
      have := hsome i hi
      refine Classical.byContradiction fun hge => ?_
      rw [changeOf, hc] at this
      have : i ≥ 2 := by omega
      simp_all
    have c0 : changeOf s 0 = some (.mode 1 40) := by rw [changeOf, hc]; rfl
    have c1 : changeOf s 1 = some (.all (percentages otherProfiles)) := by rw [changeOf, hc]; rfl
    have horder : order = [0, 1] ∨ order = [1, 0] := by
      match order, hn, m0, m1, hlt with
      | [a], hn, m0, m1, hlt => simp at m0 m1; omega
      | [a, b], hn, m0, m1, hlt =>
        have := hlt a (by simp); have := hlt b (by simp)
        simp at hn m0 m1
        have : (a = 0 ∧ b = 1) ∨ (a = 1 ∧ b = 0) := by omega
        rcases this with ⟨rfl, rfl⟩ | ⟨rfl, rfl⟩ <;> simp
      | a :: b :: c :: l, hn, m0, m1, hlt =>
        have := hlt a (by simp); have := hlt b (by simp); have := hlt c (by simp)
        simp at hn; omega
    rw [show deviceUnit.pct s.sh.world.line = _ from h2] at hp
    rcases horder with rfl | rfl
    · simp only [List.filterMap, c0, c1] at hp
      exact absurd hp (by decide)
    · simp only [List.filterMap, c0, c1] at hp
      exact absurd hp (by decide)
  · cases h1

/-- **C29** (partial) If no fan-profile command is written while another goroutine is between reading
and writing the profiles, the outcome is that of executing all calls, `SetFanProfiles` included, one
after the other. Missing: the hypothesis. Nothing in `SetFanProfiles` makes it hold. -/
theorem C29_serial_partial {S : Setup σ} (U : ProfileUnit S.line S.env) {w : World σ} {s : Sys σ}
    (h : Reachable S (Sys.initial w) s) (hno : NoOverlap s.sh.trace) : Serial U w s :=
  serial U h hno

/-- Decides `NoOverlap`. -/
def noOverlapB (tr : List (Tid × Act)) : Bool :=
  (List.range tr.length).all fun n => match tr[n]? with
    | some (t, .wrote bs _) => !(bs.take 4 == [0x07, 0xF0, 0x00, 0xCF]) ||
        amHolder (tr.take n) == none || amHolder (tr.take n) == some t
    | _ => true

theorem noOverlapB_sound {tr : List (Tid × Act)} (h : noOverlapB tr = true) : NoOverlap tr := by
  rintro pre t bs r post rfl hb u hu
  have := List.all_eq_true.mp h pre.length (by simp)
  simp [hb, hu] at this
  exact this

/-- The hypothesis is met when `SetFanProfiles` is over before `SetFanProfile` begins to read. -/
example : ∃ s, Reachable device (Sys.initial deviceStart) s ∧ NoOverlap s.sh.trace ∧
    allChanged s = true ∧ pctOf s.sh.world.line.payload = [20, 40, 22, 24, 40, 26, 23, 27] := by
  obtain ⟨s, hs, ht⟩ := exec_witness (S := device) deviceStart
    ([.arrive (.libSetProfile 1 40), .arrive (.libSetProfiles otherProfiles)] ++
      steps 5 (.client 1) ++ steps 12 (.client 0)) (fun _ _ => trivial)
    (fun s => noOverlapB s.sh.trace && allChanged s &&
      pctOf s.sh.world.line.payload == [20, 40, 22, 24, 40, 26, 23, 27]) (by decide)
  simp only [Bool.and_eq_true, beq_iff_eq] at ht
  exact ⟨s, hs, noOverlapB_sound ht.1.1, ht.1.2, ht.2⟩

theorem whole_act {L : Line σ} {env : σ → σ → Prop} (U : ProfileUnit L env) {t : Tid} {a : Act}
    {sh sh' : Shared σ} {p0 : List UInt8} (ha : Acts L t a sh sh')
    (h : U.pct sh.world.line = p0 ∨ ∃ t d r, (t, .wrote (frame 0xCF d) r) ∈ sh.trace ∧
      U.pct sh.world.line = d) :
    U.pct sh'.world.line = p0 ∨ ∃ t d r, (t, .wrote (frame 0xCF d) r) ∈ sh'.trace ∧
      U.pct sh'.world.line = d := by
  have keep : U.pct sh'.world.line = U.pct sh.world.line →
      U.pct sh'.world.line = p0 ∨ ∃ t d r, (t, .wrote (frame 0xCF d) r) ∈ sh'.trace ∧
        U.pct sh'.world.line = d := by
    intro e
    rw [e]
    refine h.imp id ?_
    rintro ⟨t', d, r, h1, h2⟩
    exact ⟨t', d, r, by rw [acts_trace ha]; exact List.mem_append_left _ h1, h2⟩
  cases ha with
  | @wrote bs r _ line hr =>
    by_cases hb : ∃ d, bs = frame 0xCF d
    · obtain ⟨d, rfl⟩ := hb
      rcases U.write_set hr with ⟨hp, -⟩ | ⟨hp, -⟩
      · exact .inr ⟨t, d, r, by simp, hp⟩
      · exact keep hp
    · exact keep (U.write_other hr fun d hd => hb ⟨d, hd⟩)
  | got hr => exact keep (U.read_pct hr)
  | @store _ id e => refine keep ?_; cases id <;> rfl
  | _ => exact keep rfl

/-- **C29** (partial) Whatever overlaps, the unit holds its initial percentages or those of one
command that was written: never a mixture of two commands. -/
theorem C29_whole_partial {S : Setup σ} (U : ProfileUnit S.line S.env) {w : World σ} {s : Sys σ}
    (h : Reachable S (Sys.initial w) s) :
    U.pct s.sh.world.line = U.pct w.line ∨
      ∃ t d r, (t, .wrote (frame 0xCF d) r) ∈ s.sh.trace ∧ U.pct s.sh.world.line = d := by
  induction h with
  | start => exact .inl rfl
  | step _ hs ih =>
    cases hs with
    | work hw =>
      cases hw with
      | client i c a p sh hc hn ha => exact whole_act U ha ih
      | worker a p sh hn ha => exact whole_act U ha ih
      | flush i c t p =>
        refine ih.imp id ?_
        rintro ⟨t', d, r, h1, h2⟩
        exact ⟨t', d, r, List.mem_append_left _ h1, h2⟩
      | flushed i c b p q =>
        refine ih.imp id ?_
        rintro ⟨t', d, r, h1, h2⟩
        exact ⟨t', d, r, List.mem_append_left _ h1, h2⟩
    | tick => exact ih
    | arrive => exact ih
    | environment line ns he => rw [show U.pct _ = _ from (U.env_same he).1]; exact ih

/-- In the example of C29 the unit ends up with the percentages of the second command that was
written. -/
example : (Sys.execs device ([.arrive (.libSetProfile 1 40), .arrive (.libSetProfiles otherProfiles)] ++
      steps 5 (.client 1) ++ steps 12 (.client 0)) (Sys.initial deviceStart)).any (fun s =>
    deviceUnit.pct s.sh.world.line == [20, 40, 22, 24, 40, 26, 23, 27] &&
    s.sh.trace.any fun x => match x with
      | (.client 0, .wrote bs _) => bs == frame 0xCF [20, 40, 22, 24, 40, 26, 23, 27]
      | _ => false) = true := by decide +kernel

end Comfo.Props
