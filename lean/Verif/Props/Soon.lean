import Verif.Props.Echo
import Verif.Props.Shown
/-!
# A setting that was changed is what everybody sees, after a known time: C112
-/
namespace Comfo.Props
open Spec Pace

variable {σ : Type} {S : Setup σ} {w : World σ} {f : Nat → Sys σ}

/-- What is current at a moment before `s` is not newer than `s`. -/
theorem current_old (hw : ∀ id, (w.get id).last ≤ w.clock) {s : Sys σ} (hr : Reachable S (Sys.initial w) s)
    (id : CacheId) {tr more : List (Tid × Act)} (he : s.sh.trace = tr ++ more) :
    (current id (w.get id) tr).last ≤ s.sh.world.clock := by
  obtain ⟨g, hi⟩ := inv5 hw hr
  have hG : Glob5 g s.sh := hi.glob
  have ho : ScanOld id s.sh.world.clock (scanAll id tr) :=
    scan_old tr fun u t hm => hG.noted u id t (he ▸ List.mem_append_left _ hm)
  unfold current
  match h3 : (scanAll id tr).1 with
  | some (v', t) => exact ho.val v' t h3
  | none =>
    have h1 := hw id
    obtain ⟨-, -, h2, -⟩ := since hr
    have h2 : w.clock ≤ s.sh.world.clock := h2
    exact Int.le_trans h1 h2

theorem confirmed_later {tr ext : List (Tid × Act)} {t : Tid} {bs : List UInt8} {pre rest : List (Tid × Act)}
    (h : Confirmed tr t bs pre rest) : Confirmed (tr ++ ext) t bs pre (rest ++ ext) := by
  obtain ⟨r, mid, e, q, post, h1, h2, h3⟩ := h
  exact ⟨r, mid, e, q, post ++ ext, by rw [h1]; simp, by rw [h2]; simp, h3⟩

/-- A command was confirmed, and the unit works since then: after the bound of C111 requests for the cache see the
setting. -/
theorem soon_back {cmd : UInt8} {id : CacheId} {shows : List UInt8 → CVal id → Prop} (hcmd : cmd ≠ requestCode id)
    (U : ReportUnit cmd id shows S.line S.env) {δ r A j : Nat} (T : Timely S w f δ r) (hA : JobsWithin f δ r A)
    (hw : ∀ id, (w.get id).last ≤ w.clock) {k : Tick} (hk : Ticking f k δ j) (hid : id ∈ tier k) {p n n' : Nat}
    (hn : (f p).sh.world.clock + (tickTime δ r A j k + 4500000000 : Nat) < (f n).sh.world.clock)
    (hnn : n ≤ n') {ext : List (Tid × Act)} (hext : (f n').sh.trace = (f p).sh.trace ++ ext)
    (hs : Shows id (fun _ => True) ext) {t : Tid} {d : List UInt8} {pre rest : List (Tid × Act)}
    (hc : Confirmed (f p).sh.trace t (frame cmd d) pre rest) {i : Nat} (hi : (f n).clients.length ≤ i) {x : Resp}
    (ha : Answered (f n') i (getCall id) x) :
    Confirmed (f n').sh.trace t (frame cmd d) pre (rest ++ ext) ∧
      (NoCommand cmd (rest ++ ext) → ∃ v, x = getAnswer id v ∧ shows d v) := by
  refine ⟨hext ▸ confirmed_later hc, fun hno => ?_⟩
  have hf := T.run
  obtain ⟨pre', c, post, e1, e2, e3, e4⟩ := read_since T hA hw hk hid hn hnn hext hs hi ha
  rcases List.append_eq_append_iff.1 (hext.symm.trans e1) with ⟨mid, h1, h2⟩ | ⟨more, h1, -⟩
  · obtain ⟨g, hI⟩ := inv6 hcmd U (run_reach hf n')
    have hE : EchoInv U g (f n').sh := hI.glob.2
    have hc' : Confirmed pre' t (frame cmd d) pre (rest ++ mid) := h1 ▸ confirmed_later hc
    have hno' : NoCommand cmd (rest ++ mid) := by
      intro u d' r' hm
      refine hno u d' r' ?_
      rw [h2]
      rcases List.mem_append.1 hm with h | h
      · exact List.mem_append_left _ h
      · exact List.mem_append_right _ (List.mem_append_left _ h)
    have hsf := scan_from (id := id) hcmd hc'
    match hsu : successes id (others t (scanAll id pre).2) (rest ++ mid) with
    | some (v, τ) =>
      refine ⟨v, ?_, hE.echo _ _ t d pre _ e1 hc' hno' v τ hsu⟩
      rw [e3, e2]
      unfold current
      rw [hsf, hsu]
      rfl
    | none =>
      exfalso
      have same : current id (w.get id) pre' = current id (w.get id) pre := by
        unfold current
        rw [hsf, hsu]
        rfl
      obtain ⟨r', -, -, -, -, h3, -⟩ := hc
      have := current_old hw (run_reach hf p) id h3
      rw [e2, same] at e4
      omega
  · exfalso
    have := current_old hw (run_reach hf p) id h1
    rw [e2] at e4
    omega

/-- **C112** (1) `SetComfortTemp(x)` has reported a modification by step `p`, and the unit works since then. Whoever asks
for the temperatures after the bound of C111 gets the comfort temperature `x`, unless somebody has written another command
for it since; whether the request has succeeded in reading the unit again or not. -/
theorem C112_comfort (U : ReportUnit 0xD3 .temps ShowsComfort S.line S.env) {δ r A j : Nat} (T : Timely S w f δ r)
    (hA : JobsWithin f δ r A) (hw : ∀ id, (w.get id).last ≤ w.clock) (hk : Ticking f .fast δ j) {p n n' : Nat}
    (hn : (f p).sh.world.clock + (tickTime δ r A j .fast + 4500000000 : Nat) < (f n).sh.world.clock)
    (hnn : n ≤ n') {ext : List (Tid × Act)} (hext : (f n').sh.trace = (f p).sh.trace ++ ext)
    (hs : Shows .temps (fun _ => True) ext) {q : Nat} {x : UInt32} {a : ComfortModified}
    (hq : Answered (f p) q (.setComfort x) (.comfort (.ok a))) (hmod : a.modified = true)
    {i : Nat} (hi : (f n).clients.length ≤ i) {y : Resp} (ha : Answered (f n') i .getTemps y) :
    ∃ d pre rest, Confirmed (f n').sh.trace (.client q) (frame 0xD3 d) pre rest ∧
      (NoCommand 0xD3 rest → ∃ v : Temps, y = getAnswer .temps v ∧ v.comfort = x.toNat) := by
  obtain ⟨-, -, h1, -⟩ := C59_comfort_set_partial U.toSettingUnit (run_reach T.run p) hq
  obtain ⟨b, hb, pre, rest, hc, -⟩ := h1 hmod
  obtain ⟨h2, h3⟩ := soon_back (by decide) U T hA hw hk (by simp [tier]) hn hnn hext hs hc hi ha
  refine ⟨_, pre, _, h2, fun hno => ?_⟩
  obtain ⟨v, h4, b', h5, h6⟩ := h3 hno
  cases h5
  exact ⟨v, h4, by rw [h6, hb]; omega⟩

/-- **C112** (2) The same for `SetFanSpeed`: whoever asks for the fan profiles gets the speed that was reported. -/
theorem C112_speed (U : ReportUnit 0x99 .profiles ShowsSpeed S.line S.env) {δ r A j : Nat} (T : Timely S w f δ r)
    (hA : JobsWithin f δ r A) (hw : ∀ id, (w.get id).last ≤ w.clock) (hk : Ticking f .slow δ j) {p n n' : Nat}
    (hn : (f p).sh.world.clock + (tickTime δ r A j .slow + 4500000000 : Nat) < (f n).sh.world.clock)
    (hnn : n ≤ n') {ext : List (Tid × Act)} (hext : (f n').sh.trace = (f p).sh.trace ++ ext)
    (hs : Shows .profiles (fun _ => True) ext) {q : Nat} {abs : UInt32} {rel : Bool} {a : SpeedModified}
    (hq : Answered (f p) q (.setSpeed abs rel) (.speed (.ok a))) (hmod : a.modified = true)
    {i : Nat} (hi : (f n).clients.length ≤ i) {y : Resp} (ha : Answered (f n') i .getProfiles y) :
    ∃ d pre rest, Confirmed (f n').sh.trace (.client q) (frame 0x99 d) pre rest ∧
      (NoCommand 0x99 rest → ∃ v : FanProfiles, y = getAnswer .profiles v ∧
        v.currentMode.toUInt32 = a.targetSpeed) := by
  obtain ⟨m, hm, -, -, h1, -⟩ := C42_speed_set_partial U.toSettingUnit (run_reach T.run p) hq
  obtain ⟨pre, rest, hc, -⟩ := h1 hmod
  obtain ⟨h2, h3⟩ := soon_back (by decide) U T hA hw hk (by simp [tier]) hn hnn hext hs hc hi ha
  refine ⟨_, pre, _, h2, fun hno => ?_⟩
  obtain ⟨v, h4, h5⟩ := h3 hno
  cases h5
  exact ⟨v, h4, hm.symm⟩

/-- **C112** (3) The same for `SetFanProfile(m, x)`: whoever asks for the fan profiles gets `x` for both fans in that mode. -/
theorem C112_profile (U : ReportUnit 0xCF .profiles ShowsPct S.line S.env) {δ r A j : Nat} (T : Timely S w f δ r)
    (hA : JobsWithin f δ r A) (hw : ∀ id, (w.get id).last ≤ w.clock) (hk : Ticking f .slow δ j) {p n n' : Nat}
    (hn : (f p).sh.world.clock + (tickTime δ r A j .slow + 4500000000 : Nat) < (f n).sh.world.clock)
    (hnn : n ≤ n') {ext : List (Tid × Act)} (hext : (f n').sh.trace = (f p).sh.trace ++ ext)
    (hs : Shows .profiles (fun _ => True) ext) {q : Nat} {m x : UInt32} {a : SpeedModified}
    (hq : Answered (f p) q (.setProfile m x) (.speed (.ok a))) (hmod : a.modified = true)
    {i : Nat} (hi : (f n).clients.length ≤ i) {y : Resp} (ha : Answered (f n') i .getProfiles y) :
    ∃ d pre rest, (∀ k ∈ entries (m.toNat % 256 - 1), d[k]? = some x.toUInt8) ∧
      Confirmed (f n').sh.trace (.client q) (frame 0xCF d) pre rest ∧
      (NoCommand 0xCF rest → ∃ v, y = getAnswer .profiles v ∧ percentages v = d) := by
  obtain ⟨mode, pc, hm, hp, -, -, -, -, -, h1, -⟩ := C65_profile_set_partial U.toSettingUnit (run_reach T.run p) hq
  obtain ⟨d, pre, rest, -, he, hc, -⟩ := h1 hmod
  obtain ⟨h2, h3⟩ := soon_back (by decide) U T hA hw hk (by simp [tier]) hn hnn hext hs hc hi ha
  refine ⟨d, pre, _, ?_, h2, h3⟩
  rw [hm] at he
  have : pc = x.toUInt8 := UInt8.toNat.inj (by rw [hp]; simp)
  exact this ▸ he

/-! ## Examples -/

open Play

/-- A unit that answers `k` requests for cache `id` and does not answer the next one. -/
def shyLine (L : Line τ) (last : τ → List UInt8) (id : CacheId) : Line (τ × Nat) where
  write bs s := ((L.write bs s.1).1, ((L.write bs s.1).2, s.2))
  read e s :=
    if e = true ∧ last s.1 = frame (requestCode id) [] ∧ s.2 = 0 then (.ret {} (some .timeout), (s.1, 1000))
    else ((L.read e s.1).1, ((L.read e s.1).2, if last s.1 = frame (requestCode id) [] then s.2 - 1 else s.2))

def shyReport {cmd : UInt8} {id : CacheId} {shows : List UInt8 → CVal id → Prop} {L : Line τ} {env : τ → τ → Prop}
    (U : ReportUnit cmd id shows L env) : ReportUnit cmd id shows (shyLine L U.last id) (· = ·) where
  value s := U.value s.1
  last s := U.last s.1
  took s := U.took s.1
  write_last := by
    intro bs s r s' h hb
    cases h
    exact U.write_last rfl hb
  write_set := by
    intro d s r s' h
    cases h
    exact U.write_set rfl
  write_other := by
    intro bs s r s' h hb
    cases h
    exact U.write_other rfl hb
  read_same := by
    intro e s q s' h
    simp only [shyLine] at h
    split at h
    · cases h; rfl
    · cases h; exact U.read_same rfl
  read_ack := by
    intro e s q s' d h hl
    simp only [shyLine] at h
    split at h
    · cases h
    · obtain ⟨h1, -⟩ := Prod.mk.inj h
      exact U.read_ack (Prod.ext h1 rfl) hl
  env_same := by
    rintro s s' rfl
    exact ⟨rfl, rfl, rfl⟩
  read_reply := by
    intro s q s' v h hl hq hd
    simp only [shyLine] at h
    split at h
    · cases h
    · obtain ⟨h1, -⟩ := Prod.mk.inj h
      exact U.read_reply (Prod.ext h1 rfl) hl hq hd

/-- A request of client 0 in `K` steps; `N` times the timer fires after its period and the worker deals with that; then
somebody asks. -/
def soonBeats (c g : Call) (K N : Nat) (k : Tick) : List Beat :=
  [.act (.arrive c)] ++ (steps K (.client 0)).map .act ++
    (List.replicate N ([Beat.rest (tickPeriod k), .act (.tick k)] ++ (steps 22 .worker).map .act)).flatten ++
    [.act (.arrive g)] ++ (steps 3 (.client 1)).map .act

/-- What is tested for such an execution; the timer fires for the first time after `K` steps. -/
structure Cycles {τ : Type} (S : Setup τ) (w : World τ) (bs : List Beat) (K N : Nat) (k : Tick) : Prop where
  line : S.line.NoPanic
  calls : ∀ c, S.calls c → OnServer c
  fine : Fine S bs (Sys.initial w) 0
  len : K + 24 * N ≤ bs.length
  fires : ∀ q < N, bs[K + 24 * q + 1]? = some (.act (.tick k))
  clock : ∀ n : Fin (bs.length + 1), (play S bs (Sys.initial w) n).sh.world.clock =
    w.clock + k.period * ((min N ((n - K + 23) / 24) : Nat) : Int)
  only : ∀ n : Fin (bs.length + 1), (play S bs (Sys.initial w) n).worker.waits = true →
    (play S bs (Sys.initial w) (n + 1)).worker.waits = false → ∃ q < N, n.val = K + 24 * q + 1
  quiet : ∀ n : Fin (bs.length + 1), (play S bs (Sys.initial w) n).worker.answers = false
  clients : ∀ n : Fin (bs.length + 1), (play S bs (Sys.initial w) n).clients.length ≤ 2
  noFlush : ∀ n : Fin (bs.length + 1), ((play S bs (Sys.initial w) n).clients.all fun c => match c.call with
    | .flush _ => false
    | _ => true) = true

variable {bs : List Beat} {K N : Nat} {k : Tick}

theorem play_all {P : Sys σ → Prop} (h : ∀ n : Fin (bs.length + 1), P (play S bs (Sys.initial w) n)) (n : Nat) :
    P (play S bs (Sys.initial w) n) := by
  rcases Nat.lt_or_ge n (bs.length + 1) with hn | hn
  · exact h ⟨n, hn⟩
  · rw [play_end (by omega)]
    exact h ⟨bs.length, by omega⟩

theorem Cycles.timely (C : Cycles S w bs K N k) : Timely S w (play S bs (Sys.initial w)) 0 2 where
  line := C.line
  calls := C.calls
  run := play_run C.fine
  prompt := play_prompt C.fine
  queued := play_queued C.fine
  handover b m n _ h := by
    obtain ⟨⟨p, hp⟩, -⟩ := h m (Nat.le_refl _) ‹_›
    have := play_all (P := fun s => s.worker.answers = false) C.quiet m
    revert this hp
    generalize (play S bs (Sys.initial w) m).worker = q
    intro hp this
    cases hp; cases this
  readers n id := Nat.le_trans List.countP_le_length (play_all (P := fun s => s.clients.length ≤ 2) C.clients n)

theorem Cycles.takes (C : Cycles S w bs K N k) {q : Nat} (h : q < N) :
    TakesTick (play S bs (Sys.initial w)) k (K + 24 * q + 1) := by
  have := play_beat C.fine.runs (C.fires q h)
  simp only [beat, Sys.exec1] at this
  split at this
  · rename_i hw
    exact ⟨waits_iff hw, (Option.some.inj this).symm⟩
  · cases this

theorem Cycles.time (C : Cycles S w bs K N k) (n : Nat) : (play S bs (Sys.initial w) n).sh.world.clock =
    w.clock + k.period * ((min N ((n - K + 23) / 24) : Nat) : Int) := by
  have := C.len
  rcases Nat.lt_or_ge n (bs.length + 1) with hn | hn
  · exact C.clock ⟨n, hn⟩
  · rw [play_end (by omega), show min N ((n - K + 23) / 24) = min N ((bs.length - K + 23) / 24) by omega]
    exact C.clock ⟨bs.length, by omega⟩

theorem Cycles.idle (C : Cycles S w bs K N k) {n : Nat} (h1 : (play S bs (Sys.initial w) n).worker = .ret ())
    (h2 : (play S bs (Sys.initial w) (n + 1)).worker ≠ .ret ()) : TakesTick (play S bs (Sys.initial w)) k n := by
  rcases Nat.lt_or_ge n (bs.length + 1) with hn | hn
  · obtain ⟨q, hq, e⟩ := C.only ⟨n, hn⟩ (by rw [h1]; rfl) (by
      cases h : (play S bs (Sys.initial w) (n + 1)).worker.waits with
      | false => rfl
      | true => exact absurd (waits_iff h) h2)
    have e : n = K + 24 * q + 1 := e
    rw [e]
    exact C.takes hq
  · rw [play_end (by omega)] at h1 h2
    exact absurd h1 h2

theorem Cycles.ticking (C : Cycles S w bs K N k) : Ticking (play S bs (Sys.initial w)) k 0 0 where
  soon m c n hmc hcn hno _ := by
    left
    rw [C.time, C.time]
    have : min N ((n + 1 - K + 23) / 24) ≤ min N ((m - K + 23) / 24) + 1 := by
      rcases Nat.lt_or_ge (min N ((m - K + 23) / 24) + 1) (min N ((n + 1 - K + 23) / 24)) with h | h
      · exact absurd (C.takes (q := (m - K + 23) / 24) (by omega)) (hno _ (by omega) (by omega))
      · exact h
    generalize min N ((n + 1 - K + 23) / 24) = a at this ⊢
    generalize min N ((m - K + 23) / 24) = b at this ⊢
    cases k <;> simp only [Tick.period, fastCacheStale, slowCacheStale, glacialCacheStale] <;> omega
  turn m c n js hmc hno _ hb := by
    have hcn := begun_le hb
    suffices js = [] by rw [this]; exact Nat.le_refl _
    induction hcn generalizing js with
    | refl => exact begun_self hb
    | @step n hcn ih =>
      rcases begun_step hb hcn 0 0 with ⟨_, _, _, _, _, h1, h2, _⟩ | ⟨hb', _⟩
      · exact absurd (C.idle h1 h2) (hno n (Nat.le_trans hmc hcn) (Nat.lt_succ_self _))
      · exact ih js (fun i i1 i2 => hno i i1 (by omega)) hb'

theorem Cycles.jobs (C : Cycles S w bs K N k) : JobsWithin (play S bs (Sys.initial w)) 0 2 10000000000 := by
  refine jobs_ticks C.calls (play_run C.fine) (fun n c hc t he => ?_) 0 2
  have := List.all_eq_true.1 (play_all (P := fun s => (s.clients.all fun c => match c.call with
    | .flush _ => false
    | _ => true) = true) C.noFlush n) c hc
  rw [he] at this
  cases this

theorem Cycles.ext (C : Cycles S w bs K N k) {p n : Nat} (h : p ≤ n) : (play S bs (Sys.initial w) n).sh.trace =
    (play S bs (Sys.initial w) p).sh.trace ++
      (play S bs (Sys.initial w) n).sh.trace.drop (play S bs (Sys.initial w) p).sh.trace.length := by
  obtain ⟨ext, e, -⟩ := since (run_from (play_run C.fine) h)
  rw [e, List.drop_left]

/-- Checks that the unit works. -/
def worksB (id : CacheId) (ext : List (Tid × Act)) : Bool :=
  (ext.all fun x => match x.2 with
    | .wrote bs (k, err) => !(bs = frame (requestCode id) [] || bs = ack) || (k == bs.length && err.isNone)
    | _ => true) &&
  (List.range ext.length).all fun i => match ext[i]? with
    | some (t, .got true (q, err)) => !(lastWritten (actsOf t (ext.take i)) = some (frame (requestCode id) [])) ||
      (err.isNone && q.command == requestCode id + 1 && (decode id q.data).isSome)
    | _ => true

theorem worksB_sound {id : CacheId} {ext : List (Tid × Act)} (h : worksB id ext = true) :
    Shows id (fun _ => True) ext := by
  simp only [worksB, Bool.and_eq_true] at h
  obtain ⟨h1, h2⟩ := h
  refine ⟨?_, ?_⟩
  · intro t bs k err hm hb
    have := List.all_eq_true.1 h1 _ hm
    simp only [Bool.or_eq_true, Bool.not_eq_true', Bool.or_eq_false_iff, decide_eq_false_iff_not, Bool.and_eq_true,
      beq_iff_eq, Option.isNone_iff_eq_none] at this
    rcases this with h | h
    · rcases hb with hb | hb
      · exact absurd hb h.1
      · exact absurd hb h.2
    · exact h
  · intro as t q err bs he hl
    have := List.all_eq_true.1 h2 as.length (List.mem_range.2 (by rw [he]; simp))
    have hi : ext[as.length]? = some (t, .got true (q, err)) := by rw [he]; simp
    have hl : lastWritten (actsOf t (ext.take as.length)) = some (frame (requestCode id) []) := by
      rw [he, List.take_left]; exact hl
    rw [hi] at this
    simp only [hl, decide_true, Bool.not_true, Bool.false_or, Bool.and_eq_true, Option.isNone_iff_eq_none, beq_iff_eq] at this
    obtain ⟨v, hv⟩ := Option.isSome_iff_exists.1 this.2
    exact ⟨this.1.1, this.1.2, v, hv, trivial⟩

theorem shy_noPanic {L : Line τ} (h : L.NoPanic) (last : τ → List UInt8) (id : CacheId) :
    (shyLine L last id).NoPanic := fun e s => by
  simp only [shyLine]
  split
  · simp
  · exact h e s.1

/-- Only requests of clients arrive. -/
def servedB (bs : List Beat) : Bool :=
  bs.all fun b => match b with
    | .act (.arrive (.setComfort _)) | .act (.arrive (.setSpeed _ _)) | .act (.arrive (.setProfile _ _)) => true
    | .act (.arrive .getTemps) | .act (.arrive .getProfiles) => true
    | .act (.arrive _) => false
    | _ => true

theorem servedB_sound {bs : List Beat} (h : servedB bs = true) {c : Call} (hc : .act (.arrive c) ∈ bs) : OnServer c := by
  have := List.all_eq_true.1 h _ hc
  cases c <;> first | trivial | cases this

/-- A unit that does not answer the first question for the temperatures. -/
def shyVent : Setup (Vent × Nat) :=
  { cv := amd64, line := shyLine ventLine Vent.last .temps, env := (· = ·), calls := OnServer }

def shyVentStart : World (Vent × Nat) :=
  { line := (duelStart.line, 0), temps := duelStart.temps, profiles := duelStart.profiles, clock := duelStart.clock }

def shyBeats : List Beat := soonBeats (.setComfort 25) .getTemps 18 6 .fast

theorem shy_cycles : Cycles shyVent shyVentStart shyBeats 19 6 .fast where
  line := shy_noPanic vent_noPanic _ _
  calls _ h := h
  fine := {
    env := fun _ => rfl
    calls := fun c hc => servedB_sound (by decide +kernel) hc
    runs := by decide +kernel
    prompt := by decide +kernel
    queued := by decide +kernel }
  len := by decide +kernel
  fires q h := by
    match q, h with
    | 0, _ | 1, _ | 2, _ | 3, _ | 4, _ | 5, _ => rfl
  clock := by decide +kernel
  only := by decide +kernel
  quiet := by decide +kernel
  clients := by decide +kernel
  noFlush := by decide +kernel

def shyPlay : Nat → Sys (Vent × Nat) := play shyVent shyBeats (Sys.initial shyVentStart)

set_option maxRecDepth 16000 in
/-- `SetComfortTemp(25)` is confirmed, but the unit does not answer when it is read again, so that the cache is as before
(21 °C). Half a minute later everybody gets 25 °C. -/
example : storedB .temps (shyPlay 19).sh.trace = false ∧ (shyPlay 19).sh.world.temps.val.comfort = 21 ∧
    commandsB 0xD3 (shyPlay 167).sh.trace = 1 ∧
    (match (shyPlay 167).clients.map Client.prog with
      | [.ret (.comfort (.ok a)), .ret (.temps (.ok b))] => a.modified && b.comfort == 25
      | _ => false) = true ∧
    ∃ y d pre rest, Answered (shyPlay 167) 1 .getTemps y ∧
      Confirmed (shyPlay 167).sh.trace (.client 0) (frame 0xD3 d) pre rest ∧
      (NoCommand 0xD3 rest → ∃ v : Temps, y = getAnswer .temps v ∧ v.comfort = 25) := by
  obtain ⟨y, hy⟩ : ∃ y, Answered (shyPlay 167) 1 .getTemps y := ⟨_, rfl⟩
  refine ⟨by decide +kernel, by decide +kernel, by decide +kernel, by decide +kernel, y, ?_⟩
  obtain ⟨d, pre, rest, h1, h2⟩ := C112_comfort (f := shyPlay) (shyReport ventComfortReport) shy_cycles.timely
    shy_cycles.jobs (by intro id; cases id <;> decide +kernel) shy_cycles.ticking (p := 19) (n := 163) (n' := 167)
    (by decide +kernel) (by omega) (shy_cycles.ext (by omega)) (worksB_sound (by decide +kernel)) (q := 0) (x := 25)
    (a := _) rfl rfl (i := 1) (by decide +kernel) hy
  exact ⟨d, pre, rest, hy, h1, h2⟩

/-- A unit that does not answer the first question for the fan profiles. -/
def shySpeed : Setup (Vent × Nat) :=
  { cv := amd64, line := shyLine ventLine Vent.last .profiles, env := (· = ·), calls := OnServer }

def shySpeedBeats : List Beat := soonBeats (.setSpeed 2 false) .getProfiles 33 2 .slow

theorem shySpeed_cycles : Cycles shySpeed shyVentStart shySpeedBeats 34 2 .slow where
  line := shy_noPanic vent_noPanic _ _
  calls _ h := h
  fine := {
    env := fun _ => rfl
    calls := fun c hc => servedB_sound (by decide +kernel) hc
    runs := by decide +kernel
    prompt := by decide +kernel
    queued := by decide +kernel }
  len := by decide +kernel
  fires q h := by
    match q, h with
    | 0, _ | 1, _ => rfl
  clock := by decide +kernel
  only := by decide +kernel
  quiet := by decide +kernel
  clients := by decide +kernel
  noFlush := by decide +kernel

def shySpeedPlay : Nat → Sys (Vent × Nat) := play shySpeed shySpeedBeats (Sys.initial shyVentStart)

set_option maxRecDepth 16000 in
/-- The same for `SetFanSpeed(2)`, after ten minutes. -/
example : storedB .profiles (shySpeedPlay 34).sh.trace = false ∧ commandsB 0x99 (shySpeedPlay 86).sh.trace = 1 ∧
    (match (shySpeedPlay 86).clients.map Client.prog with
      | [.ret (.speed (.ok a)), .ret (.profiles (.ok b))] => a.modified && b.currentMode == 2
      | _ => false) = true ∧
    ∃ y d pre rest, Answered (shySpeedPlay 86) 1 .getProfiles y ∧
      Confirmed (shySpeedPlay 86).sh.trace (.client 0) (frame 0x99 d) pre rest ∧
      (NoCommand 0x99 rest → ∃ v : FanProfiles, y = getAnswer .profiles v ∧ v.currentMode.toUInt32 = 2) := by
  obtain ⟨y, hy⟩ : ∃ y, Answered (shySpeedPlay 86) 1 .getProfiles y := ⟨_, rfl⟩
  refine ⟨by decide +kernel, by decide +kernel, by decide +kernel, y, ?_⟩
  obtain ⟨d, pre, rest, h1, h2⟩ := C112_speed (f := shySpeedPlay) (shyReport ventSpeedReport) shySpeed_cycles.timely
    shySpeed_cycles.jobs (by intro id; cases id <;> decide +kernel) shySpeed_cycles.ticking (p := 34) (n := 82) (n' := 86)
    (by decide +kernel) (by omega) (shySpeed_cycles.ext (by omega)) (worksB_sound (by decide +kernel)) (q := 0) (abs := 2) (rel := false)
    (a := _) rfl rfl (i := 1) (by decide +kernel) hy
  exact ⟨d, pre, rest, hy, h1, h2⟩

theorem device_noPanic : deviceLine.NoPanic := fun e s => by
  simp only [deviceLine]
  split <;> simp

/-- A unit that does not answer the second question for the fan profiles; `SetFanProfile` asks the first one to see what it
has to keep. -/
def shyDev : Setup (Dev × Nat) :=
  { cv := amd64, line := shyLine deviceLine Dev.last .profiles, env := (· = ·), calls := OnServer }

def shyDevStart : World (Dev × Nat) :=
  { line := (lopsided.line, 1), profiles := lopsided.profiles, clock := duelStart.clock }

def shyDevBeats : List Beat := soonBeats (.setProfile 3 40) .getProfiles 25 2 .slow

theorem shyDev_cycles : Cycles shyDev shyDevStart shyDevBeats 26 2 .slow where
  line := shy_noPanic device_noPanic _ _
  calls _ h := h
  fine := {
    env := fun _ => rfl
    calls := fun c hc => servedB_sound (by decide +kernel) hc
    runs := by decide +kernel
    prompt := by decide +kernel
    queued := by decide +kernel }
  len := by decide +kernel
  fires q h := by
    match q, h with
    | 0, _ | 1, _ => rfl
  clock := by decide +kernel
  only := by decide +kernel
  quiet := by decide +kernel
  clients := by decide +kernel
  noFlush := by decide +kernel

def shyDevPlay : Nat → Sys (Dev × Nat) := play shyDev shyDevBeats (Sys.initial shyDevStart)

set_option maxRecDepth 16000 in
/-- The same for `SetFanProfile(3, 40 %)`. -/
example : storedB .profiles (shyDevPlay 26).sh.trace = false ∧ commandsB 0xCF (shyDevPlay 78).sh.trace = 1 ∧
    (match (shyDevPlay 78).clients.map Client.prog with
      | [.ret (.speed (.ok a)), .ret (.profiles (.ok b))] => a.modified && b.inMid == 40 && b.outMid == 40
      | _ => false) = true ∧
    ∃ y d pre rest, Answered (shyDevPlay 78) 1 .getProfiles y ∧
      Confirmed (shyDevPlay 78).sh.trace (.client 0) (frame 0xCF d) pre rest ∧
      (NoCommand 0xCF rest → ∃ v, y = getAnswer .profiles v ∧ percentages v = d) := by
  obtain ⟨y, hy⟩ : ∃ y, Answered (shyDevPlay 78) 1 .getProfiles y := ⟨_, rfl⟩
  refine ⟨by decide +kernel, by decide +kernel, by decide +kernel, y, ?_⟩
  obtain ⟨d, pre, rest, -, h1, h2⟩ := C112_profile (f := shyDevPlay) (shyReport (profileReport deviceUnit)) shyDev_cycles.timely
    shyDev_cycles.jobs (by intro id; cases id <;> decide +kernel) shyDev_cycles.ticking (p := 26) (n := 74) (n' := 78)
    (by decide +kernel) (by omega) (shyDev_cycles.ext (by omega)) (worksB_sound (by decide +kernel)) (q := 0) (m := 3) (x := 40)
    (a := _) rfl rfl (i := 1) (by decide +kernel) hy
  exact ⟨d, pre, rest, hy, h1, h2⟩

end Comfo.Props
