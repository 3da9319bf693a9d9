import Verif.Lemmas.Turn
import Verif.Props.Setting
/-!
# C105: the line is used by three goroutines at most

However many requests there are, at most three goroutines want to talk to the unit at any time: the
cache worker, one request that changes a fan setting, and one that changes the comfort temperature.
-/
namespace Comfo.Props
open Spec

/-- **C105** Of all requests only those that change a setting use the line or wait for it. -/
theorem C105_who {S : Setup σ} (hS : ∀ c, S.calls c → OnServer c) {w : World σ} {s : Sys σ}
    (h : Reachable S (Sys.initial w) s) {i : Nat} (ha : AtLine s (.client i)) :
    ∃ c, s.clients[i]? = some c ∧ (FanCall c.call ∨ TempCall c.call) := by
  obtain ⟨c, l, h1, h2, -⟩ := at_line hS h ha
  refine ⟨c, h1, ?_⟩
  match hc : c.call with
  | .setSpeed _ _ => exact .inl trivial
  | .setProfile _ _ => exact .inl trivial
  | .setComfort _ => exact .inr trivial
  | .getBoot | .getBypass | .getErrors | .getFans | .getProfiles | .getTemps | .flush _
  | .libQuery _ | .libGet _ | .libSetComfort _ | .libSetSpeed _ | .libSetProfile _ _
  | .libSetProfiles _ => rw [hc] at h2; cases h2

theorem outer_same {S : Setup σ} (hS : ∀ c, S.calls c → OnServer c) {w : World σ} {s : Sys σ}
    (h : Reachable S (Sys.initial w) s) {i j : Nat} (hi : AtLine s (.client i))
    (hj : AtLine s (.client j))
    (he : (s.clients[i]?).bind (fun c => outer c.call) = (s.clients[j]?).bind (fun c => outer c.call)) :
    i = j := by
  obtain ⟨c, l, h1, h2, h3⟩ := at_line hS h hi
  obtain ⟨c', l', h1', h2', h3'⟩ := at_line hS h hj
  rw [h1, h1', Option.bind_some, Option.bind_some, h2, h2'] at he
  cases he
  obtain ⟨g, hinv⟩ := inv1 h
  have hG : Glob1 g s.sh := hinv.glob
  have := hG.excl _ h3 _ h3' rfl rfl
  cases this
  rfl

/-- **C105** Of the requests that change a fan setting one at a time uses the line or waits for it, and
of those that change the temperature also one. -/
theorem C105_one {S : Setup σ} (hS : ∀ c, S.calls c → OnServer c) {w : World σ} {s : Sys σ}
    (h : Reachable S (Sys.initial w) s) {i j : Nat} (hi : AtLine s (.client i))
    (hj : AtLine s (.client j)) {c d : Client} (hc : s.clients[i]? = some c) (hd : s.clients[j]? = some d)
    (hk : FanCall c.call ∧ FanCall d.call ∨ TempCall c.call ∧ TempCall d.call) : i = j := by
  refine outer_same hS h hi hj ?_
  rw [hc, hd, Option.bind_some, Option.bind_some]
  have fan : ∀ c, FanCall c → outer c = some .fan := fun c h => by cases c <;> first | rfl | exact absurd h id
  have temp : ∀ c, TempCall c → outer c = some .temp := fun c h => by
    cases c <;> first | rfl | exact absurd h id
  rcases hk with ⟨h1, h2⟩ | ⟨h1, h2⟩
  · rw [fan _ h1, fan _ h2]
  · rw [temp _ h1, temp _ h2]

theorem nodup_le {α : Type} [DecidableEq α] {l₂ : List α} : ∀ {l₁ : List α}, l₁.Nodup →
    (∀ x ∈ l₁, x ∈ l₂) → l₁.length ≤ l₂.length := by
  induction l₂ with
  | nil =>
    intro l₁ _ h
    cases l₁ with
    | nil => exact Nat.le_refl _
    | cons x _ => exact absurd (h x List.mem_cons_self) (by simp)
  | cons a l₂ ih =>
    intro l₁ hn h
    have := @ih (l₁.erase a) (hn.erase a) (fun x hx => by
      rw [hn.mem_erase_iff] at hx
      exact (List.mem_cons.1 (h x hx.2)).resolve_left hx.1)
    by_cases hm : a ∈ l₁
    · rw [List.length_erase_of_mem hm] at this
      simp only [List.length_cons]; omega
    · rw [List.erase_of_not_mem hm] at this
      simp only [List.length_cons]; omega

/-- **C105** At most three goroutines use the line or wait for it. -/
theorem C105_three {S : Setup σ} (hS : ∀ c, S.calls c → OnServer c) {w : World σ} {s : Sys σ}
    (h : Reachable S (Sys.initial w) s) {ts : List Tid} (hn : ts.Nodup) (ha : ∀ t ∈ ts, AtLine s t) :
    ts.length ≤ 3 := by
  let label : Tid → Option Lock := fun
    | .worker => none
    | .client i => (s.clients[i]?).bind fun c => outer c.call
  have hc : ∀ i, AtLine s (.client i) → label (.client i) = some .fan ∨ label (.client i) = some .temp := by
    intro i hi
    obtain ⟨c, l, h1, h2, -⟩ := at_line hS h hi
    simp only [label, h1, Option.bind_some, h2]
    match hcc : c.call with
    | .setSpeed _ _ => rw [hcc] at h2; exact .inl h2.symm
    | .setProfile _ _ => rw [hcc] at h2; exact .inl h2.symm
    | .setComfort _ => rw [hcc] at h2; exact .inr h2.symm
    | .getBoot | .getBypass | .getErrors | .getFans | .getProfiles | .getTemps | .flush _
    | .libQuery _ | .libGet _ | .libSetComfort _ | .libSetSpeed _ | .libSetProfile _ _
    | .libSetProfiles _ => rw [hcc] at h2; cases h2
  have hinj : (ts.map label).Nodup := by
    rw [List.Nodup, List.pairwise_map]
    refine List.Pairwise.imp_of_mem ?_ hn
    intro a b ma mb hab he
    apply hab
    cases a with
    | worker =>
      cases b with
      | worker => rfl
      | client j => rcases hc j (ha _ mb) with h' | h' <;> rw [h'] at he <;> cases he
    | client i =>
      cases b with
      | worker => rcases hc i (ha _ ma) with h' | h' <;> rw [h'] at he <;> cases he
      | client j => rw [outer_same hS h (ha _ ma) (ha _ mb) he]
  have := nodup_le (l₂ := [none, some Lock.fan, some Lock.temp]) hinj (by
    intro x hx
    obtain ⟨t, ht, rfl⟩ := List.mem_map.1 hx
    cases t with
    | worker => simp [label]
    | client i => rcases hc i (ha _ ht) with h' | h' <;> rw [h'] <;> simp)
  simpa using this

/-! ## Waiting for the line -/

/-- What a goroutine that did nothing between `s` and `s'` is about to do in `s'`: what it was about to do in
`s`, or it has just begun. -/
def Rested (S : Setup σ) (s s' : Sys σ) : Tid → Prop
  | .client i => ∀ c, s'.clients[i]? = some c →
      s.clients[i]? = some c ∨ S.calls c.call ∧ c.prog = c.call.prog S.cv
  | .worker => s'.worker = s.worker ∨ (∃ k, s'.worker = onTick k) ∨ ∃ v, s'.worker = flushCaches v

theorem rested {S : Setup σ} {s s' : Sys σ} (h : Reachable S s s') {ext : List (Tid × Act)} {u : Tid}
    (he : s'.sh.trace = s.sh.trace ++ ext) (hu : ∀ a, (u, a) ∉ ext) : Rested S s s' u := by
  induction h generalizing ext with
  | start => cases u with
    | client i => exact fun c h => .inl h
    | worker => exact .inl rfl
  | @step s₁ s₂ hr hs ih =>
    obtain ⟨e₁, h₁⟩ := trace_grows hr
    have sub : ∀ {x : List (Tid × Act)}, s₂.sh.trace = s₁.sh.trace ++ x → ext = e₁ ++ x := by
      intro x hx
      rw [he, h₁, List.append_assoc] at hx
      exact List.append_cancel_left hx
    have old : ∀ {x : List (Tid × Act)}, s₂.sh.trace = s₁.sh.trace ++ x → Rested S s s₁ u ∧
        ∀ a, (u, a) ∉ x := fun hx =>
      ⟨ih h₁ fun a ha => hu a (by rw [sub hx]; exact List.mem_append_left _ ha),
        fun a ha => hu a (by rw [sub hx]; exact List.mem_append_right _ ha)⟩
    have other : ∀ {i : Nat} {p : Prog Resp} {j : Nat} {c : Client},
        (s₁.setClient i p)[j]? = some c → i ≠ j → s₁.clients[j]? = some c := by
      intro i p j c hc hne
      rwa [setClient_get, if_neg hne] at hc
    cases hs with
    | work hw =>
      cases hw with
      | client i c a p sh hc hn ha =>
        obtain ⟨o, x⟩ := old (acts_trace ha)
        cases u with
        | worker => exact o
        | client j =>
          intro d hd
          exact o d (other hd fun e => x a (by rw [e]; simp))
      | worker a p sh hn ha =>
        obtain ⟨o, x⟩ := old (acts_trace ha)
        cases u with
        | worker => exact absurd (List.mem_singleton.2 rfl) (x a)
        | client j => exact o
      | flush i c v p hc hn hwk =>
        obtain ⟨o, x⟩ := old (x := [(.client i, .sendFlush v)]) rfl
        cases u with
        | worker => exact .inr (.inr ⟨v, rfl⟩)
        | client j =>
          intro d hd
          exact o d (other hd fun e => x _ (by rw [e]; exact List.mem_singleton.2 rfl))
      | flushed i c b p q hc hn hwk =>
        obtain ⟨o, x⟩ := old (x := [(.worker, .sendFlushed b), (.client i, .recvFlushed b)]) rfl
        cases u with
        | worker => exact absurd (by simp) (x (.sendFlushed b))
        | client j =>
          intro d hd
          exact o d (other hd fun e => x (.recvFlushed b) (by simp [e]))
    | tick k hwk =>
      obtain ⟨o, -⟩ := old (x := []) (by simp)
      cases u with
      | worker => exact .inr (.inl ⟨k, rfl⟩)
      | client j => exact o
    | arrive c hc =>
      obtain ⟨o, -⟩ := old (x := []) (by simp)
      cases u with
      | worker => exact o
      | client j =>
        intro d hd
        rw [List.getElem?_append] at hd
        split at hd
        · exact o d hd
        · rw [List.getElem?_singleton] at hd
          split at hd
          · cases hd; exact .inr ⟨hc, rfl⟩
          · cases hd
    | environment line ns hE =>
      obtain ⟨o, -⟩ := old (x := []) (by simp)
      cases u with
      | worker => exact o
      | client j => exact o

/-- Nobody begins with the line. -/
theorem rested_poised {S : Setup σ} (hS : ∀ c, S.calls c → OnServer c) {s s' : Sys σ} {u : Tid}
    (h : Rested S s s' u) (hp : Poised s' u (.lock .pm)) : Poised s u (.lock .pm) := by
  cases u with
  | client i =>
    obtain ⟨c, p, hc, hn⟩ := hp
    rcases h c hc with h | ⟨h1, h2⟩
    · exact ⟨c, p, h, hn⟩
    · rw [h2] at hn
      have := (ok_next (r7_call S.cv (hS _ h1)) hn trivial).1
      cases this
  | worker =>
    obtain ⟨p, hn⟩ := hp
    rcases h with h | ⟨k, h⟩ | ⟨v, h⟩
    · exact ⟨p, by rw [← h]; exact hn⟩
    · rw [h] at hn; cases k <;> cases hn
    · rw [h, flushCaches_eq] at hn
      split at hn
      · rename_i ids _
        cases ids <;> cases hn
      · cases hn

/-- The state in which an action was carried out, seen from an earlier one. -/
theorem moment_from {S : Setup σ} {s s' : Sys σ} (h : Reachable S s s')
    {pre post : List (Tid × Act)} {t : Tid} {a : Act}
    (htr : s'.sh.trace = s.sh.trace ++ (pre ++ (t, a) :: post)) (ha : a.isChannel = false) :
    ∃ s₁, Reachable S s s₁ ∧ s₁.sh.trace = s.sh.trace ++ pre ∧ Poised s₁ t a := by
  rw [← List.append_assoc] at htr
  induction h generalizing post with
  | start =>
    have := congrArg List.length htr
    simp at this
  | @step s₁ s₂ hr hs ih =>
    cases hs with
    | work hw =>
      cases hw with
      | client i c b p sh hc hn hact =>
        simp only at htr
        rw [acts_trace hact] at htr
        rcases split_snoc htr with ⟨he, e, -⟩ | ⟨post', he⟩
        · cases e; exact ⟨s₁, hr, he.symm, ⟨c, p, hc, hn⟩⟩
        · exact ih he
      | worker b p sh hn hact =>
        simp only at htr
        rw [acts_trace hact] at htr
        rcases split_snoc htr with ⟨he, e, -⟩ | ⟨post', he⟩
        · cases e; exact ⟨s₁, hr, he.symm, ⟨p, hn⟩⟩
        · exact ih he
      | flush i c v p hc hn hwk =>
        simp only at htr
        rcases split_snoc htr with ⟨-, e, -⟩ | ⟨post', he⟩
        · cases e; cases ha
        · exact ih he
      | flushed i c v p q hc hn hwk =>
        simp only at htr
        rw [show ∀ (x y : Tid × Act), s₁.sh.trace ++ [x, y] = (s₁.sh.trace ++ [x]) ++ [y] by simp] at htr
        rcases split_snoc htr with ⟨-, e, -⟩ | ⟨post', he⟩
        · cases e; cases ha
        · rcases split_snoc he with ⟨-, e, -⟩ | ⟨post', he⟩
          · cases e; cases ha
          · exact ih he
    | tick k hwk => exact ih htr
    | arrive c hc => exact ih htr
    | environment line ns he => exact ih htr

/-- Who took the line. -/
def takers (trace : List (Tid × Act)) : List Tid :=
  (trace.filter isTaking).map Prod.fst

theorem mem_takers {trace : List (Tid × Act)} {u : Tid} (h : u ∈ takers trace) :
    (u, .lock .pm) ∈ trace := by
  obtain ⟨⟨v, a⟩, h1, rfl⟩ := List.mem_map.1 h
  obtain ⟨h2, h3⟩ := List.mem_filter.1 h1
  unfold isTaking at h3
  split at h3
  · rename_i e; cases e; exact h2
  · cases h3

theorem takers_nodup {trace : List (Tid × Act)} (h : InTurn trace) : (takers trace).Nodup := by
  induction trace with
  | nil => exact List.nodup_nil
  | cons x l ih =>
    have hl : (takers l).Nodup := ih fun pre u post e a ha =>
      h (x :: pre) u post (by rw [e]; rfl) a (List.mem_cons_of_mem _ ha)
    unfold takers at hl ⊢
    rw [List.filter_cons]
    split
    · rw [List.map_cons, List.nodup_cons]
      refine ⟨fun hm => ?_, hl⟩
      obtain ⟨pre, post, e⟩ := List.append_of_mem (mem_takers (trace := l) hm)
      exact h (x :: pre) _ post (by rw [e]; rfl) x.2 List.mem_cons_self
    · exact hl

/-- **C105** Goroutine `t` waits for the line, and those who come later do not overtake it. Then it waits
for two exchanges of others at most, the one under way included. -/
theorem C105_turns {S : Setup σ} (hS : ∀ c, S.calls c → OnServer c) {w : World σ} {s s' : Sys σ}
    (h : Reachable S (Sys.initial w) s) {t : Tid} (ht : Poised s t (.lock .pm)) (h' : Reachable S s s')
    {ext : List (Tid × Act)} (he : s'.sh.trace = s.sh.trace ++ ext) (hw : ∀ a, (t, a) ∉ ext)
    (hf : InTurn ext) :
    turns ext ≤ 2 ∧ ((∃ u, ⟨.pm, true, u⟩ ∈ s.sh.held) → turns ext ≤ 1) := by
  have hlen : turns ext = (takers ext).length := by
    rw [turns, takers, List.length_map]
  have hp : ∀ u ∈ takers ext, Poised s u (.lock .pm) := by
    intro u hu
    obtain ⟨pre, post, e⟩ := List.append_of_mem (mem_takers hu)
    obtain ⟨s₁, r₁, t₁, p₁⟩ := moment_from h' (he.trans (by rw [e])) rfl
    exact rested_poised hS (rested r₁ t₁ (hf pre u post e)) p₁
  have hne : t ∉ takers ext := fun hm => hw _ (mem_takers hm)
  have hnd : (t :: takers ext).Nodup := List.nodup_cons.2 ⟨hne, takers_nodup hf⟩
  have hat : ∀ u ∈ t :: takers ext, Poised s u (.lock .pm) := by
    intro u hu
    rcases List.mem_cons.1 hu with rfl | hu
    · exact ht
    · exact hp u hu
  constructor
  · have := C105_three hS h hnd fun u hu => .inl (hat u hu)
    rw [hlen]; simpa using this
  · rintro ⟨v, hv⟩
    have hv' : v ∉ t :: takers ext := by
      intro hm
      obtain ⟨g, hinv⟩ := inv1 h
      have hG : Glob1 g s.sh := hinv.glob
      have hh := (hG.held_iff _ _ _).2 hv
      have hfree : (g v).Free .pm := by
        have := hat v hm
        cases v with
        | client i =>
          obtain ⟨c, p, hc, hn⟩ := this
          exact (ok_next (hinv.client i c hc).1 hn trivial).1.2
        | worker =>
          obtain ⟨p, hn⟩ := this
          exact (ok_next hinv.worker hn trivial).1.2
      exact absurd (hfree _ hh) (Nat.lt_irrefl _)
    have := C105_three hS h (List.nodup_cons.2 ⟨hv', hnd⟩) fun u hu => by
      rcases List.mem_cons.1 hu with rfl | hu
      · exact .inr hv
      · exact .inl (hat u hu)
    rw [hlen]
    simp only [List.length_cons] at this
    omega

/-! ## Examples -/

/-- The examples' unit, used by the server alone. -/
def ventServed : Setup Vent := { vent with calls := OnServer }

/-- Is the program about to take the line? -/
def _root_.Comfo.Prog.wantsLine : Prog α → Bool
  | .lock .pm _ => true
  | _ => false

theorem wantsLine_next {p : Prog α} (h : p.wantsLine = true) : ∃ q, p.Next (.lock .pm) q := by
  unfold Comfo.Prog.wantsLine at h
  split at h
  · exact ⟨_, .lock⟩
  · cases h

/-- `InTurn`, tested. -/
def inTurnB (trace : List (Tid × Act)) : Bool :=
  (List.range trace.length).all fun j => match trace[j]? with
    | some (u, .lock .pm) => (trace.take j).all fun x => x.1 ≠ u
    | _ => true

theorem inTurnB_sound {trace : List (Tid × Act)} (h : inTurnB trace = true) : InTurn trace := by
  rintro pre u post rfl a ha
  have := List.all_eq_true.1 h pre.length (by simp)
  simp only [List.getElem?_append_right (Nat.le_refl _), Nat.sub_self, List.getElem?_cons_zero,
    List.take_left'] at this
  have := List.all_eq_true.1 this _ ha
  simp at this

/-- A temperature and two speeds are being set, a cache is flushed, the temperatures are asked for. -/
def crowd : List Cmd :=
  [.arrive (.setComfort 25), .arrive (.setSpeed 2 false), .arrive (.setSpeed 1 false), .arrive .getTemps,
    .arrive (.flush 1)] ++
    steps 3 (.client 0) ++ steps 3 (.client 1) ++ steps 1 (.client 2) ++ steps 3 (.client 3) ++
    steps 2 (.client 4) ++ steps 3 .worker

theorem crowd_calls : ∀ c, .arrive c ∈ crowd → ventServed.calls c := by
  intro c hc
  simp [crowd, steps] at hc
  rcases hc with rfl | rfl | rfl | rfl | rfl <;> trivial

/-- Six goroutines, three of which wait for the line: the bound of `C105_three` is reached. -/
example : ∃ s, Reachable ventServed (Sys.initial (ventStart 3)) s ∧ s.clients.length = 5 ∧
    ∀ t ∈ [Tid.worker, .client 0, .client 1], AtLine s t := by
  obtain ⟨s, h, ht⟩ := exec_witness (S := ventServed) (ventStart 3) crowd crowd_calls
    (fun s => s.clients.length == 5 && s.worker.wantsLine && match s.clients with
      | c :: d :: _ => c.prog.wantsLine && d.prog.wantsLine
      | _ => false) (by decide +kernel)
  simp only [Bool.and_eq_true, beq_iff_eq] at ht
  obtain ⟨⟨h5, hw⟩, hc⟩ := ht
  refine ⟨s, h, h5, ?_⟩
  match hcl : s.clients, h5 with
  | [c, d, x, y, z], _ =>
    rw [hcl] at hc
    simp only [Bool.and_eq_true] at hc
    obtain ⟨p, hp⟩ := wantsLine_next hw
    obtain ⟨q, hq⟩ := wantsLine_next hc.1
    obtain ⟨r, hr⟩ := wantsLine_next hc.2
    intro t ht
    simp only [List.mem_cons, List.not_mem_nil, or_false] at ht
    rcases ht with rfl | rfl | rfl
    · exact .inl ⟨p, hp⟩
    · exact .inl ⟨c, q, by rw [hcl]; rfl, hq⟩
    · exact .inl ⟨d, r, by rw [hcl]; rfl, hr⟩

/-- The worker waits for two exchanges: the bound of `C105_turns` is reached. -/
example : ∃ s s' ext, Reachable ventServed (Sys.initial (ventStart 3)) s ∧
    Poised s .worker (.lock .pm) ∧ Reachable ventServed s s' ∧ s'.sh.trace = s.sh.trace ++ ext ∧
    (∀ a, (Tid.worker, a) ∉ ext) ∧ InTurn ext ∧ turns ext = 2 := by
  have key : ((Sys.execs ventServed crowd (Sys.initial (ventStart 3))).any fun s => s.worker.wantsLine &&
      (Sys.execs ventServed (steps 5 (.client 0) ++ steps 5 (.client 1)) s).any fun s' =>
        let ext := s'.sh.trace.drop s.sh.trace.length
        ext.all (fun x => x.1 ≠ .worker) && inTurnB ext && turns ext == 2) = true := by
    decide +kernel
  match h1 : Sys.execs ventServed crowd (Sys.initial (ventStart 3)) with
  | none => rw [h1] at key; cases key
  | some s =>
    rw [h1] at key
    simp only [Option.any_some, Bool.and_eq_true] at key
    obtain ⟨k1, k2⟩ := key
    match h2 : Sys.execs ventServed (steps 5 (.client 0) ++ steps 5 (.client 1)) s with
    | none => rw [h2] at k2; cases k2
    | some s' =>
      rw [h2] at k2
      simp only [Option.any_some, Bool.and_eq_true, beq_iff_eq] at k2
      obtain ⟨⟨k3, k4⟩, k5⟩ := k2
      have r := execs_sound (S := ventServed) (fun c hc => by simp [steps] at hc) .start h2
      obtain ⟨ext, he⟩ := trace_grows r
      have hd : s'.sh.trace.drop s.sh.trace.length = ext := by rw [he]; simp
      rw [hd] at k3 k4 k5
      obtain ⟨p, hp⟩ := wantsLine_next k1
      refine ⟨s, s', ext, execs_sound crowd_calls .start h1, ⟨p, hp⟩, r, he, fun a ha => ?_,
        inTurnB_sound k4, k5⟩
      have := List.all_eq_true.1 k3 _ ha
      simp at this

end Comfo.Props
