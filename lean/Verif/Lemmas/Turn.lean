import Verif.Spec.Turn
import Verif.Lemmas.Moment
/-!
Helper lemmas: a request takes the line only while it has the lock of the fans or that of the
temperatures to itself.
-/
namespace Comfo
open Spec

/-- Ghost state: the outer lock is held; the line is held. -/
structure G7 where
  out : Bool := false
  pm : Bool := false

def must7 (k : Option Lock) (g : G7) : Act → Prop
  | .lock .pm => g.out = true
  | .lock .fan => k = some .fan
  | .lock .temp => k = some .temp
  | .unlock .fan | .unlock .temp => g.pm = false
  | _ => True

def post7 (g : G7) : Act → G7
  | .lock .pm => { g with pm := true }
  | .unlock .pm => { g with pm := false }
  | .lock .fan | .lock .temp => { g with out := true }
  | .unlock .fan | .unlock .temp => { g with out := false }
  | _ => g

def R7 (k : Option Lock) : Rules G7 where
  must := must7 k
  post := post7

variable {k : Option Lock}

theorem r7_query {Q : G7 → Packet × Option Err → Prop} (p : Packet)
    (hQ : ∀ q e, (e = none → p.expect = true → q.command = p.command + 1) → Q ⟨true, false⟩ (q, e)) :
    (queryPacketP p).Ok (R7 k) Q ⟨true, false⟩ := by
  unfold queryPacketP
  refine fun _ => ⟨rfl, ?_⟩
  show Prog.Ok (R7 k) Q _ ⟨true, true⟩
  split
  · exact fun _ => ⟨trivial, hQ _ _ (by simp)⟩
  · rintro ⟨n, err⟩ -
    refine ⟨trivial, ?_⟩
    show Prog.Ok (R7 k) Q _ ⟨true, true⟩
    cases err with
    | some e => exact fun _ => ⟨trivial, hQ _ _ (by simp)⟩
    | none =>
      rintro ⟨q, err⟩ -
      refine ⟨trivial, ?_⟩
      show Prog.Ok (R7 k) Q _ ⟨true, true⟩
      cases err with
      | some e => exact fun _ => ⟨trivial, hQ _ _ (by simp)⟩
      | none =>
        by_cases hc : p.expect = true ∧ q.command ≠ p.command + 1
        · simp only [if_pos hc]
          exact fun _ => ⟨trivial, hQ _ _ (by simp)⟩
        · have hc' : p.expect = true → q.command = p.command + 1 := by
            intro h
            by_cases h2 : q.command = p.command + 1
            · exact h2
            · exact absurd ⟨h, h2⟩ hc
          simp only [if_neg hc]
          rintro ⟨m, err⟩ -
          refine ⟨trivial, ?_⟩
          show Prog.Ok (R7 k) Q _ ⟨true, true⟩
          cases err with
          | some e => exact fun _ => ⟨trivial, hQ _ _ (by simp)⟩
          | none => exact fun _ => ⟨trivial, hQ _ _ fun _ => hc'⟩

theorem r7_setQuery {Q : G7 → Option Err → Prop} (inp : SetRequest) (hQ : ∀ r, Q ⟨true, false⟩ r) :
    (setQueryP inp).Ok (R7 k) Q ⟨true, false⟩ := by
  unfold setQueryP
  split
  · exact hQ _
  · exact ok_bind (r7_query _ fun _ _ _ => hQ _)

theorem r7_fetch {id : CacheId} {Q : G7 → CVal id × Option Err → Prop}
    (hQ : ∀ r, Q ⟨true, false⟩ r) : id.fetch.Ok (R7 k) Q ⟨true, false⟩ :=
  ok_fetch id (r7_query _ fun _ _ h => ⟨fun he => h he rfl, fun _ _ _ _ => hQ _⟩)

theorem r7_update {Q : G7 → Unit → Prop} (id : CacheId) (force : Bool) (hQ : Q ⟨true, false⟩ ()) :
    (update id force).Ok (R7 k) Q ⟨true, false⟩ := by
  have hu : (Prog.unlock (.cache id) (.ret ())).Ok (R7 k) Q ⟨true, false⟩ := fun _ => ⟨trivial, hQ⟩
  have refresh : ∀ now, (Prog.note id now <| id.fetch.bind fun (v, err) =>
      match err with
      | none => .store id { val := v, last := now } <| .unlock (.cache id) <| .ret ()
      | some _ => .unlock (.cache id) <| .ret ()).Ok (R7 k) Q ⟨true, false⟩ := by
    intro now _
    refine ⟨trivial, ok_bind (r7_fetch ?_)⟩
    rintro ⟨v, e⟩
    cases e with
    | none => exact fun _ => ⟨trivial, hu⟩
    | some _ => exact hu
  unfold update
  refine fun _ => ⟨trivial, fun now _ => ⟨trivial, ?_⟩⟩
  show Prog.Ok (R7 k) Q _ ⟨true, false⟩
  cases force with
  | true => exact refresh now
  | false =>
    refine fun c _ => ⟨trivial, ?_⟩
    show Prog.Ok (R7 k) Q _ ⟨true, false⟩
    by_cases hs : (!isStale c.last now) = true
    · simp only [hs, if_true]; exact hu
    · simp only [hs]; exact refresh now

theorem r7_setComfortTemp {cv : FloatConv} {v : UInt32} :
    (setComfortTemp cv v).Ok (R7 (some .temp)) (fun _ _ => True) ⟨false, false⟩ := by
  unfold setComfortTemp
  refine fun start _ => ⟨trivial, fun (c : Entry Temps) _ => ⟨trivial, ?_⟩⟩
  show Prog.Ok (R7 (some .temp)) _ (if v > 255 then _ else _) ⟨false, false⟩
  split
  · trivial
  · split
    · refine fun _ => ⟨rfl, ok_bind (r7_setQuery _ ?_)⟩
      intro err
      cases err with
      | some e => exact fun _ => ⟨rfl, trivial⟩
      | none => exact ok_bind (r7_update _ _ fun stop _ => ⟨trivial, fun _ => ⟨rfl, trivial⟩⟩)
    · exact fun stop _ => ⟨trivial, trivial⟩

theorem r7_pollLoop {Q : G7 → Option SrvErr → Prop} {a b : UInt8} {n : Nat}
    (hQ : ∀ r, Q ⟨true, false⟩ r) : (pollLoop a b n).Ok (R7 k) Q ⟨true, false⟩ := by
  induction n with
  | zero => exact hQ _
  | succ n ih =>
    refine ok_bind (r7_update _ _ fun (c : Entry Fans) _ => ⟨trivial, ?_⟩)
    show Prog.Ok (R7 k) Q (if c.val.inPercent = a then _ else _) ⟨true, false⟩
    split
    · refine fun (c : Entry Fans) _ => ⟨trivial, ?_⟩
      show Prog.Ok (R7 k) Q (if c.val.outPercent = b then _ else _) ⟨true, false⟩
      split
      · exact hQ _
      · exact fun _ => ⟨trivial, ih⟩
    · exact fun _ => ⟨trivial, ih⟩

theorem r7_updatePoll {Q : G7 → Option SrvErr → Prop} {n : Nat} {tgt : UInt8}
    (hQ : ∀ r, Q ⟨true, false⟩ r) : (updatePoll n tgt).Ok (R7 k) Q ⟨true, false⟩ := by
  unfold updatePoll
  refine fun _ => ⟨trivial, fun (c : Entry FanProfiles) _ => ⟨trivial, ?_⟩⟩
  show Prog.Ok (R7 k) Q (match FanProfiles.lookup c.val tgt with
      | (_, some e) => Prog.ret (some (SrvErr.lib e))
      | ((inPct, outPct), none) => _) ⟨true, false⟩
  split
  · exact hQ _
  · exact fun _ => ⟨trivial, r7_pollLoop hQ⟩

theorem r7_setFanSpeed {abs : UInt32} {rel : Bool} :
    (setFanSpeed abs rel).Ok (R7 (some .fan)) (fun _ _ => True) ⟨false, false⟩ := by
  unfold setFanSpeed
  refine fun start _ => ⟨trivial, fun _ => ⟨rfl, fun c _ => ⟨trivial, ?_⟩⟩⟩
  show Prog.Ok (R7 (some .fan)) _ _ ⟨true, false⟩
  simp only
  match hm : modifySpeed c.val.currentMode abs rel with
  | (_, some e) => exact fun _ => ⟨rfl, trivial⟩
  | (tgt, none) =>
    simp only
    split
    · refine ok_bind (r7_setQuery _ ?_)
      intro err
      cases err with
      | some e => exact fun _ => ⟨rfl, trivial⟩
      | none =>
        refine ok_bind (r7_updatePoll ?_)
        intro err
        cases err with
        | some e => exact fun _ => ⟨rfl, trivial⟩
        | none => exact ok_bind (r7_update _ _ fun stop _ => ⟨trivial, fun _ => ⟨rfl, trivial⟩⟩)
    · exact fun stop _ => ⟨trivial, fun _ => ⟨rfl, trivial⟩⟩

theorem r7_setFanProfile {Q : G7 → Option Err → Prop} {m s : UInt8}
    (hQ : ∀ r, Q ⟨true, false⟩ r) : (setFanProfileP m s).Ok (R7 k) Q ⟨true, false⟩ := by
  unfold setFanProfileP
  split
  · exact hQ _
  split
  · exact hQ _
  refine fun _ => ⟨trivial, ok_bind (r7_fetch (id := .profiles) ?_)⟩
  rintro ⟨v, err⟩
  cases err with
  | some e => exact fun _ => ⟨trivial, hQ _⟩
  | none => exact ok_bind (r7_setQuery _ fun e => fun _ => ⟨trivial, hQ _⟩)

theorem r7_setFanProfileRpc {m t : UInt32} :
    (setFanProfileRpc m t).Ok (R7 (some .fan)) (fun _ _ => True) ⟨false, false⟩ := by
  unfold setFanProfileRpc
  refine fun start _ => ⟨trivial, ?_⟩
  show Prog.Ok (R7 (some .fan)) _ _ ⟨false, false⟩
  simp only
  split
  · trivial
  · rename_i hm
    split
    · trivial
    · refine fun _ => ⟨rfl, ?_⟩
      have cont : ∀ o : UInt8, (if o ≠ t.toUInt8 then
          (setFanProfileP (m.toUInt8 - 1) t.toUInt8).bind fun err =>
          match err with
          | some e => .unlock .fan <| .ret (.err (.internal (.lib e)))
          | none =>
            (update .profiles true).bind fun _ =>
            .now fun stop => .unlock .fan <| .ret (Rpc.ok
              { modified := true, originalSpeed := o.toUInt32, targetSpeed := t,
                reqTime := timeSub stop start : SpeedModified })
        else .now fun stop => .unlock .fan <| .ret (Rpc.ok
              { modified := false, originalSpeed := o.toUInt32, targetSpeed := t,
                reqTime := timeSub stop start : SpeedModified })).Ok (R7 (some .fan)) (fun _ _ => True)
          ⟨true, false⟩ := by
        intro o
        split
        · refine ok_bind (r7_setFanProfile ?_)
          intro e
          cases e with
          | some e => exact fun _ => ⟨rfl, trivial⟩
          | none => exact ok_bind (r7_update _ _ fun stop _ => ⟨trivial, fun _ => ⟨rfl, trivial⟩⟩)
        · exact fun stop _ => ⟨trivial, fun _ => ⟨rfl, trivial⟩⟩
      rcases mode_cases hm with h | h | h | h
      · simp only [h, if_true]
        rw [h] at cont
        exact fun c _ => ⟨trivial, cont c.val.inAway⟩
      · simp only [h]
        rw [h] at cont
        exact fun c _ => ⟨trivial, cont c.val.inLow⟩
      · simp only [h]
        rw [h] at cont
        exact fun c _ => ⟨trivial, cont c.val.inMid⟩
      · simp only [h]
        rw [h] at cont
        exact fun c _ => ⟨trivial, cont c.val.inHigh⟩

theorem r7_protobuf {β : Type} (id : CacheId) (conv : CVal id → β) (Q : G7 → Rpc β → Prop)
    (hQ : ∀ r, Q ⟨false, false⟩ r) : (protobuf id conv).Ok (R7 k) Q ⟨false, false⟩ :=
  fun _ => ⟨trivial, fun _ _ => ⟨trivial, fun _ => ⟨trivial, hQ _⟩⟩⟩

/-- The lock a request holds while it uses the line. -/
def outer : Call → Option Lock
  | .setSpeed _ _ | .setProfile _ _ => some .fan
  | .setComfort _ => some .temp
  | _ => none

theorem r7_call (cv : FloatConv) {c : Call} (hc : OnServer c) :
    (c.prog cv).Ok (R7 (outer c)) (fun _ _ => True) ⟨false, false⟩ := by
  cases c with
  | getBoot => exact ok_map (r7_protobuf _ _ _ fun _ => trivial)
  | getBypass => exact ok_map (r7_protobuf _ _ _ fun _ => trivial)
  | getErrors => exact ok_map (r7_protobuf _ _ _ fun _ => trivial)
  | getFans => exact ok_map (r7_protobuf _ _ _ fun _ => trivial)
  | getProfiles => exact ok_map (r7_protobuf _ _ _ fun _ => trivial)
  | getTemps => exact ok_map (r7_protobuf _ _ _ fun _ => trivial)
  | setComfort v => exact ok_map (ok_mono r7_setComfortTemp fun _ _ _ => trivial)
  | setSpeed a r => exact ok_map (ok_mono r7_setFanSpeed fun _ _ _ => trivial)
  | setProfile m t => exact ok_map (ok_mono r7_setFanProfileRpc fun _ _ _ => trivial)
  | flush t =>
    exact ok_map fun _ _ => ⟨trivial, fun _ => ⟨trivial, fun _ _ => ⟨trivial, fun _ _ =>
      ⟨trivial, trivial⟩⟩⟩⟩
  | _ => exact absurd hc id

/-- What the two ghost states have to do with each other. -/
structure Link (k : Option Lock) (g : G7) (h : G1) : Prop where
  out : g.out = true → ∃ l, k = some l ∧ (l = .fan ∨ l = .temp) ∧ (l, true) ∈ h.held
  pm : (.pm, true) ∈ h.held → g.pm = true
  inner : g.pm = true → g.out = true

theorem link_post {g : G7} {h : G1} {a : Act} (hl : Link k g h) (hm : must7 k g a) :
    Link k (post7 g a) (post1 h a) := by
  obtain ⟨h1, h2, h3⟩ := hl
  cases a with
  | lock l =>
    cases l with
    | fan =>
      refine ⟨fun _ => ⟨.fan, hm, .inl rfl, by simp [post1, G1.push]⟩, ?_, fun _ => rfl⟩
      intro h; exact h2 (by simpa [post1, G1.push] using h)
    | temp =>
      refine ⟨fun _ => ⟨.temp, hm, .inr rfl, by simp [post1, G1.push]⟩, ?_, fun _ => rfl⟩
      intro h; exact h2 (by simpa [post1, G1.push] using h)
    | pm =>
      refine ⟨fun h => ?_, fun _ => rfl, fun _ => hm⟩
      obtain ⟨l, e, e2, e3⟩ := h1 h
      exact ⟨l, e, e2, by simp [post1, G1.push, e3]⟩
    | am =>
      refine ⟨fun h => ?_, fun h => h2 (by simpa [post1, G1.push] using h), h3⟩
      obtain ⟨l, e, e2, e3⟩ := h1 h
      exact ⟨l, e, e2, by simp [post1, G1.push, e3]⟩
    | cache id =>
      refine ⟨fun h => ?_, fun h => h2 (by simpa [post1, G1.push] using h), h3⟩
      obtain ⟨l, e, e2, e3⟩ := h1 h
      exact ⟨l, e, e2, by simp [post1, G1.push, e3]⟩
  | rlock l =>
    refine ⟨fun h => ?_, fun h => h2 (by simpa [post1, G1.push] using h), h3⟩
    obtain ⟨l, e, e2, e3⟩ := h1 h
    exact ⟨l, e, e2, by simp [post1, G1.push, e3]⟩
  | runlock l =>
    refine ⟨fun h => ?_, fun h => h2 (by simp [post1] at h; exact h), h3⟩
    obtain ⟨l, e, e2, e3⟩ := h1 h
    exact ⟨l, e, e2, by simp [post1, e3]⟩
  | unlock l =>
    cases l with
    | fan =>
      refine ⟨fun h => by simp [post7] at h, fun h => h2 (by simpa [post1] using h), fun h => ?_⟩
      have : g.pm = false := hm
      simp [post7, this] at h
    | temp =>
      refine ⟨fun h => by simp [post7] at h, fun h => h2 (by simpa [post1] using h), fun h => ?_⟩
      have : g.pm = false := hm
      simp [post7, this] at h
    | pm =>
      refine ⟨fun h => ?_, fun h => by simp [post1] at h, fun h => by simp [post7] at h⟩
      obtain ⟨l, e, e2, e3⟩ := h1 h
      refine ⟨l, e, e2, ?_⟩
      rcases e2 with rfl | rfl <;> simp [post1, e3]
    | am =>
      refine ⟨fun h => ?_, fun h => h2 (by simpa [post1] using h), h3⟩
      obtain ⟨l, e, e2, e3⟩ := h1 h
      refine ⟨l, e, e2, ?_⟩
      rcases e2 with rfl | rfl <;> simp [post1, e3]
    | cache id =>
      refine ⟨fun h => ?_, fun h => h2 (by simpa [post1] using h), h3⟩
      obtain ⟨l, e, e2, e3⟩ := h1 h
      refine ⟨l, e, e2, ?_⟩
      rcases e2 with rfl | rfl <;> simp [post1, e3]
  | _ => exact ⟨h1, h2, h3⟩

theorem link_path {Q : G7 → α → Prop} {p q : Prog α} {acts : List Act} {g : G7} {h : G1}
    (hp : Path p acts q) (hok : p.Ok (R7 k) Q g) (hl : Link k g h) :
    q.Ok (R7 k) Q (acts.foldl post7 g) ∧ Link k (acts.foldl post7 g) (acts.foldl post1 h) := by
  induction hp with
  | nil => exact ⟨hok, hl⟩
  | snoc _ hn ih =>
    obtain ⟨i1, i2⟩ := ih
    rw [List.foldl_append, List.foldl_append]
    obtain ⟨h1, h2⟩ := ok_next i1 hn trivial
    exact ⟨h2, link_post i2 h1⟩

/-- A request that uses the line or is about to use it holds its outer lock. -/
theorem at_line {S : Setup σ} (hS : ∀ c, S.calls c → OnServer c) {w : World σ} {s : Sys σ}
    (h : Reachable S (Sys.initial w) s) {i : Nat} (ha : AtLine s (.client i)) :
    ∃ c l, s.clients[i]? = some c ∧ outer c.call = some l ∧ ⟨l, true, .client i⟩ ∈ s.sh.held := by
  obtain ⟨g, hi⟩ := inv1 h
  have hG : Glob1 g s.sh := hi.glob
  have key : ∀ c, s.clients[i]? = some c → ∃ g7 : G7, c.prog.Ok (R7 (outer c.call)) (fun _ _ => True) g7 ∧
      Link (outer c.call) g7 (g (.client i)) := by
    intro c hc
    obtain ⟨hp, hg⟩ := hi.hist.path i c hc
    have := link_path (h := (scheme1 S).born c.call) hp (r7_call S.cv (hS _ (hi.call i c hc)))
      ⟨(fun h => by cases h), (fun h => by cases h), (fun h => by cases h)⟩
    refine ⟨_, this.1, ?_⟩
    rw [hg]; exact this.2
  have fin : ∀ c, s.clients[i]? = some c → ∀ g7 : G7, Link (outer c.call) g7 (g (.client i)) → g7.out = true →
      ∃ c l, s.clients[i]? = some c ∧ outer c.call = some l ∧ ⟨l, true, .client i⟩ ∈ s.sh.held := by
    intro c hc g7 hl ho
    obtain ⟨l, e, -, e3⟩ := hl.out ho
    exact ⟨c, l, hc, e, (hG.held_iff _ _ _).1 e3⟩
  rcases ha with ⟨c, p, hc, hn⟩ | hh
  · obtain ⟨g7, h1, h2⟩ := key c hc
    exact fin c hc g7 h2 (ok_next h1 hn trivial).1
  · have hm := (hG.held_iff _ _ _).2 hh
    match hc : s.clients[i]? with
    | none =>
      rw [hi.unborn i (List.getElem?_eq_none_iff.mp hc)] at hm
      cases hm
    | some c =>
      obtain ⟨g7, h1, h2⟩ := key c hc
      obtain ⟨c', l, e1, e2⟩ := fin c hc g7 h2 (h2.inner (h2.pm hm))
      exact ⟨c', l, by rw [← hc]; exact e1, e2⟩

end Comfo
