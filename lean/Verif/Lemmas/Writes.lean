import Verif.Lemmas.Post
import Verif.Spec.Command
/-!
Helper lemmas: what a program may write, whatever the other goroutines do and even if it does not
come to an end.
-/
namespace Comfo
open Spec

/-- All that `p` can write satisfies `P`. -/
def Prog.Writes (P : List UInt8 → Prop) : Prog α → Prop
  | ret _ => True
  | panic => True
  | lock _ k => k.Writes P
  | unlock _ k => k.Writes P
  | rlock _ k => k.Writes P
  | runlock _ k => k.Writes P
  | now k => ∀ t, (k t).Writes P
  | sleep _ k => k.Writes P
  | write bs k => P bs ∧ ∀ r, (k r).Writes P
  | read _ k => ∀ r, (k r).Writes P
  | load _ k => ∀ c, (k c).Writes P
  | store _ _ k => k.Writes P
  | note _ _ k => k.Writes P
  | sendFlush _ k => k.Writes P
  | recvFlushed k => ∀ b, (k b).Writes P
  | sendFlushed _ k => k.Writes P

namespace Prog.Writes

theorem mono {P P' : List UInt8 → Prop} (hp : ∀ bs, P bs → P' bs) {p : Prog α} (h : p.Writes P) :
    p.Writes P' := by
  induction p with
  | ret | panic => trivial
  | write bs k ih => exact ⟨hp _ h.1, fun r => ih r (h.2 r)⟩
  | _ => rename_i ih; first | exact ih h | exact fun t => ih t (h t)

theorem bind {P : List UInt8 → Prop} {p : Prog α} {f : α → Prog β} (h : p.Writes P)
    (hf : ∀ a, (f a).Writes P) : (p.bind f).Writes P := by
  induction p with
  | ret a => exact hf a
  | panic => trivial
  | write bs k ih => exact ⟨h.1, fun r => ih r (h.2 r)⟩
  | _ => rename_i ih; first | exact ih h | exact fun t => ih t (h t)

theorem map {P : List UInt8 → Prop} {p : Prog α} {f : α → β} (h : p.Writes P) :
    (p.map f).Writes P := h.bind fun _ => trivial

theorem next {P : List UInt8 → Prop} {p q : Prog α} {a : Act} (h : p.Writes P) (hn : p.Next a q) :
    q.Writes P ∧ ∀ bs r, a = .wrote bs r → P bs := by
  cases hn with
  | write r => exact ⟨h.2 r, fun _ _ e => by cases e; exact h.1⟩
  | now t => exact ⟨h t, fun _ _ e => by cases e⟩
  | read t => exact ⟨h t, fun _ _ e => by cases e⟩
  | load t => exact ⟨h t, fun _ _ e => by cases e⟩
  | recvFlushed t => exact ⟨h t, fun _ _ e => by cases e⟩
  | _ => exact ⟨h, fun _ _ e => by cases e⟩

end Prog.Writes

theorem writes_query (p : Packet) :
    (queryPacketP p).Writes fun bs => bs = ack ∨ bs = frame p.command p.data := by
  unfold queryPacketP
  show Prog.Writes _ (match marshalPacket p with
    | (_, some e) => _
    | (pb, none) => _)
  by_cases hp : p.data.length ≤ 255
  · rw [marshal_ok p hp]
    refine ⟨.inr rfl, ?_⟩
    rintro ⟨n, err⟩
    cases err with
    | some e => trivial
    | none =>
      rintro ⟨out, err⟩
      cases err with
      | some e => trivial
      | none =>
        dsimp only
        split
        · trivial
        · refine ⟨.inl rfl, ?_⟩
          rintro ⟨m, err⟩
          cases err with
          | some e => trivial
          | none =>
            dsimp only
            split <;> trivial
  · have : ∃ b e, marshalPacket p = (b, some e) := by
      unfold marshalPacket
      rw [if_pos (by omega)]
      exact ⟨_, _, rfl⟩
    obtain ⟨b, e, he⟩ := this
    rw [he]
    trivial

theorem writes_set (inp : SetRequest) :
    (setQueryP inp).Writes fun bs => bs = ack ∨
      ∃ bin, inp.marshalBinary = (bin, none) ∧ bs = frame inp.requestType bin := by
  have h0 : inp.requestType ≠ 0 := by cases inp <;> simp [SetRequest.requestType]
  unfold setQueryP encodeSetRequest
  simp only [h0, if_false]
  match hm : inp.marshalBinary with
  | (bin, some e) => trivial
  | (bin, none) =>
    refine Prog.Writes.bind ((writes_query _).mono ?_) fun _ => trivial
    rintro bs (h | h)
    · exact .inl h
    · exact .inr ⟨bin, rfl, h⟩

theorem writes_getter {β : Type} {gr : GetRequest} {zero : β} {assert : Response → Option β} :
    (getterP gr zero assert).Writes fun bs => bs = ack ∨ bs = frame gr.code [] := by
  unfold getterP
  refine Prog.Writes.bind (writes_query (encodeGetRequest gr)) ?_
  rintro ⟨qp, e⟩
  cases e with
  | some e => trivial
  | none =>
    show Prog.Writes _ (match decodeResponse qp with
      | .panic => _
      | .ret _ (some e) => _
      | .ret none none => _
      | .ret (some resp) none => _)
    split <;> try trivial
    show Prog.Writes _ (match assert _ with
      | some v => _
      | none => _)
    split <;> trivial

theorem writes_fetch (id : CacheId) : id.fetch.Writes Harmless := by
  cases id <;> refine writes_getter.mono ?_ <;> rintro bs (h | h) <;> first
    | exact .inl h
    | exact .inr ⟨.boot, h⟩
    | exact .inr ⟨.bypass, h⟩
    | exact .inr ⟨.temps, h⟩
    | exact .inr ⟨.fans, h⟩
    | exact .inr ⟨.profiles, h⟩
    | exact .inr ⟨.errors, h⟩

theorem writes_update (id : CacheId) (force : Bool) : (update id force).Writes Harmless := by
  have hr : ∀ now : Int, Prog.Writes Harmless (.note id now <| id.fetch.bind fun (v, err) =>
      match err with
      | none => .store id { val := v, last := now } <| .unlock (.cache id) <| .ret ()
      | some _ => .unlock (.cache id) <| .ret ()) := by
    intro now
    refine Prog.Writes.bind (writes_fetch id) ?_
    rintro ⟨v, err⟩
    cases err <;> trivial
  unfold update
  intro now
  cases force
  · intro c
    show Prog.Writes _ (ite _ _ _)
    split
    · trivial
    · exact hr now
  · exact hr now

theorem writes_updates (ids : List CacheId) : (Props.updates ids).Writes Harmless := by
  induction ids with
  | nil => trivial
  | cons id ids ih => exact (writes_update _ _).bind fun _ => ih

theorem writes_flush (t : Int) : (flushCaches t).Writes Harmless := by
  rw [Props.flushCaches_eq]
  split
  · exact (writes_updates _).bind fun _ => trivial
  · trivial

theorem writes_tick (k : Tick) : (onTick k).Writes Harmless := by
  cases k <;> exact (writes_update _ _).bind fun _ => writes_update _ _

theorem writes_poll (a b : UInt8) (n : Nat) : (pollLoop a b n).Writes Harmless := by
  induction n with
  | zero => trivial
  | succ n ih =>
    refine (writes_update _ _).bind fun _ => ?_
    intro f
    show Prog.Writes _ (ite _ _ _)
    split
    · intro g
      show Prog.Writes _ (ite _ _ _)
      split
      · trivial
      · exact ih
    · exact ih

theorem writes_updatePoll (n : Nat) (t : UInt8) : (updatePoll n t).Writes Harmless := by
  intro c
  show Prog.Writes _ (match FanProfiles.lookup _ t with
    | (_, some e) => _
    | ((inPct, outPct), none) => _)
  split
  · trivial
  · exact writes_poll _ _ _

/-- Harmless, or a command the call may send. -/
def Allowed (c : Call) (bs : List UInt8) : Prop := Harmless bs ∨ MayCommand c bs

theorem allow {c : Call} {p : Prog α} (h : p.Writes Harmless) : p.Writes (Allowed c) :=
  h.mono fun _ => .inl

theorem writes_speed (abs : UInt32) (rel : Bool) :
    (setFanSpeed abs rel).Writes (Allowed (.setSpeed abs rel)) := by
  unfold setFanSpeed
  intro start c
  show Prog.Writes _ (match modifySpeed _ abs rel with
    | (_, some e) => _
    | (tgtSpeed, none) => _)
  split
  · trivial
  · rename_i m hm
    dsimp only
    split
    · refine Prog.Writes.bind ((writes_set _).mono ?_) ?_
      · rintro bs (h | ⟨bin, h1, h2⟩)
        · exact .inl (.inl h)
        · right
          simp only [SetRequest.marshalBinary] at h1
          split at h1
          · cases h1
          · cases h1
            unfold modifySpeed at hm
            split at hm
            · cases hm
            rename_i h0
            dsimp only at hm
            generalize hx : (if abs ≠ 0 then abs.toUInt8 else if rel = true then _ else _) = x at hm
            split at hm
            · cases hm
            rename_i h3
            simp only [Prod.mk.injEq, and_true] at hm
            subst hm
            have h3 : ¬ (x.toNat < 1 ∨ 4 < x.toNat) := by
              simpa [UInt8.lt_iff_toNat_lt] using h3
            refine ⟨x, by omega, by omega, h2, fun ha => ⟨?_, ?_⟩⟩
            · cases rel
              · rfl
              · exact absurd ⟨ha, rfl⟩ h0
            · rw [if_pos ha] at hx
              rw [← hx]; simp [low]
      · intro err
        cases err with
        | some e => trivial
        | none =>
          refine Prog.Writes.bind (allow (writes_updatePoll _ _)) ?_
          intro err
          cases err with
          | some e => trivial
          | none => exact (allow (writes_update _ _)).bind fun _ => fun _ => trivial
    · exact fun _ => trivial

theorem writes_comfort_set {v : UInt8} {bs : List UInt8} (h : bs = ack ∨
    ∃ bin, (SetRequest.comfort (v.toNat : Int)).marshalBinary = (bin, none) ∧ bs = frame 0xD3 bin) :
    bs = ack ∨ ∃ b : UInt8, b.toNat = (v.toNat + 20) * 2 ∧ bs = frame 0xD3 [b] := by
  rcases h with h | ⟨bin, h1, h2⟩
  · exact .inl h
  · right
    simp only [SetRequest.marshalBinary] at h1
    split at h1
    · cases h1
    · rename_i b hb
      cases h1
      refine ⟨b, ?_, h2⟩
      unfold temperatureMarshal at hb
      split at hb
      · cases hb
      split at hb
      · cases hb
      simp only [Prod.mk.injEq, and_true] at hb
      rw [← hb]
      simp only [UInt8.toNat_ofNat']
      omega

theorem writes_comfort (cv : FloatConv) (v : UInt32) :
    (setComfortTemp cv v).Writes (Allowed (.setComfort v)) := by
  unfold setComfortTemp
  intro start c
  show Prog.Writes _ (if v > 255 then _ else _)
  split
  · trivial
  · rename_i hv
    have hle : v.toNat ≤ 255 := by
      have := UInt32.not_lt.mp hv
      simpa [UInt32.le_iff_toNat_le] using this
    have hv8 : v.toUInt8.toNat = v.toNat := by simp; omega
    split
    · refine Prog.Writes.bind ((writes_set _).mono ?_) ?_
      · intro bs h
        rcases writes_comfort_set h with h | ⟨b, h1, h2⟩
        · exact .inl (.inl h)
        · exact .inr ⟨b, by rw [h1, hv8], h2⟩
      · intro err
        cases err with
        | some e => trivial
        | none => exact (allow (writes_update _ _)).bind fun _ => fun _ => trivial
    · exact fun _ => trivial

theorem writes_profile (mode pct : UInt8) :
    (setFanProfileP mode pct).Writes fun bs => Harmless bs ∨ (mode.toNat ≤ 3 ∧ pct.toNat ≤ 100 ∧
      ∃ old : FanProfiles, bs = frame 0xCF (replaceMode mode.toNat pct (percentages old))) := by
  unfold setFanProfileP
  split
  · trivial
  rename_i h1
  split
  · trivial
  rename_i h2
  have h1 : ¬ 3 < mode.toNat := by
    intro hc; exact h1 (UInt8.lt_iff_toNat_lt.2 hc)
  have h2 : ¬ 100 < pct.toNat := by
    intro hc; exact h2 (UInt8.lt_iff_toNat_lt.2 hc)
  refine Prog.Writes.bind ((writes_fetch .profiles).mono fun _ => .inl) ?_
  rintro ⟨v, err⟩
  cases err with
  | some e => trivial
  | none =>
    refine Prog.Writes.bind ((writes_set _).mono ?_) fun _ => trivial
    rintro bs (h | ⟨bin, h3, h4⟩)
    · exact .inl (.inl h)
    · refine .inr ⟨by omega, by omega, v, ?_⟩
      rw [h4]
      cases h3
      have : mode = 0 ∨ mode = 1 ∨ mode = 2 ∨ mode = 3 := by
        have e : ∀ k : Nat, mode.toNat = k → mode = UInt8.ofNat k := by
          intro k hk; rw [← hk]; simp
        have : mode.toNat = 0 ∨ mode.toNat = 1 ∨ mode.toNat = 2 ∨ mode.toNat = 3 := by omega
        rcases this with h | h | h | h
        · exact .inl (e 0 h)
        · exact .inr (.inl (e 1 h))
        · exact .inr (.inr (.inl (e 2 h)))
        · exact .inr (.inr (.inr (e 3 h)))
      rcases this with rfl | rfl | rfl | rfl <;> rfl

theorem writes_profileRpc (m t : UInt32) :
    (setFanProfileRpc m t).Writes (Allowed (.setProfile m t)) := by
  unfold setFanProfileRpc
  intro start
  have hm : m.toUInt8.toNat = low m := by simp [low]
  have ht : t.toUInt8.toNat = low t := by simp [low]
  show Prog.Writes _ (ite _ _ _)
  split
  · trivial
  rename_i h1
  have h1 : ¬ (m.toUInt8.toNat < 1 ∨ 4 < m.toUInt8.toNat) := by
    rwa [UInt8.lt_iff_toNat_lt, gt_iff_lt, UInt8.lt_iff_toNat_lt] at h1
  dsimp only
  split
  · trivial
  rename_i h2
  have h2 : ¬ (t.toUInt8.toNat < 15 ∨ 100 < t.toUInt8.toNat) := by
    rwa [UInt8.lt_iff_toNat_lt, gt_iff_lt, UInt8.lt_iff_toNat_lt] at h2
  have hm1 : (m.toUInt8 - 1).toNat = low m - 1 := by
    rw [UInt8.toNat_sub_of_le _ _ (by rw [UInt8.le_iff_toNat_le]; show 1 ≤ _; omega), hm]; rfl
  have cont : ∀ o : UInt8, Prog.Writes (Allowed (.setProfile m t)) (if o ≠ t.toUInt8 then
      (setFanProfileP (m.toUInt8 - 1) t.toUInt8).bind fun err =>
        match err with
        | some e => .unlock .fan <| .ret (.err (.internal (.lib e)))
        | none =>
          (update .profiles true).bind fun _ =>
          .now fun stop => .unlock .fan <| .ret (Rpc.ok
            (⟨true, o.toUInt32, t, timeSub stop start⟩ : SpeedModified))
      else .now fun stop => .unlock .fan <| .ret (Rpc.ok
            (⟨false, o.toUInt32, t, timeSub stop start⟩ : SpeedModified))) := by
    intro o
    split
    · refine Prog.Writes.bind ((writes_profile _ _).mono ?_) ?_
      · rintro bs (h | ⟨h3, h4, old, h5⟩)
        · exact .inl h
        · refine .inr ⟨by omega, by omega, by omega, by omega, old, t.toUInt8, ht, ?_⟩
          rw [h5, hm1]
      · intro err
        cases err with
        | some e => trivial
        | none => exact (allow (writes_update _ _)).bind fun _ => fun _ => trivial
    · exact fun _ => trivial
  show Prog.Writes _ (ite _ _ _)
  split
  · exact fun _ => cont _
  split
  · exact fun _ => cont _
  split
  · exact fun _ => cont _
  split
  · exact fun _ => cont _
  · trivial

theorem writes_protobuf (id : CacheId) (conv : CVal id → β) (P : List UInt8 → Prop) :
    (protobuf id conv).Writes P := by
  intro c
  trivial

/-- What a request may write. -/
theorem writes_call (cv : FloatConv) (c : Call) : (c.prog cv).Writes (Allowed c) := by
  cases c with
  | getBoot | getBypass | getErrors | getFans | getProfiles | getTemps =>
    exact (writes_protobuf _ _ _).map
  | setComfort v => exact (writes_comfort cv v).map
  | setSpeed a r => exact (writes_speed a r).map
  | setProfile m t => exact (writes_profileRpc m t).map
  | flush t => exact Prog.Writes.map fun _ _ _ => trivial
  | libQuery p => exact ((writes_query p).mono fun _ => Or.imp .inl id).map
  | libGet id => exact (allow (writes_fetch id)).map
  | libSetComfort v =>
    exact ((writes_set _).mono fun _ h => (writes_comfort_set h).imp .inl id).map
  | libSetSpeed v =>
    refine ((writes_set _).mono ?_).map
    rintro bs (h | ⟨bin, h1, h2⟩)
    · exact .inl (.inl h)
    · simp only [SetRequest.marshalBinary] at h1
      split at h1
      · cases h1
      · rename_i hv
        cases h1
        refine .inr ⟨?_, h2⟩
        have := UInt8.not_lt.mp hv
        simpa [UInt8.le_iff_toNat_le] using this
  | libSetProfile m s => exact ((writes_profile m s).mono fun _ => id).map
  | libSetProfiles q =>
    refine ((writes_set _).mono ?_).map
    rintro bs (h | ⟨bin, h1, h2⟩)
    · exact .inl (.inl h)
    · cases h1
      exact .inr h2

/-! ## Executions -/

/-- What has been written, and what is still to be written, is allowed. -/
structure WInv (s : Sys σ) : Prop where
  worker : s.worker.Writes Harmless
  client : ∀ (i : Nat) (c : Client), s.clients[i]? = some c → c.prog.Writes (Allowed c.call)
  trace : ∀ t bs r, (t, Act.wrote bs r) ∈ s.sh.trace → Harmless bs ∨
    ∃ (i : Nat) (c : Client), t = .client i ∧ s.clients[i]? = some c ∧ MayCommand c.call bs

/-- The clients keep their calls. -/
theorem setClient_keeps {s : Sys σ} {i j : Nat} {p : Prog Resp} {c : Client}
    (h : s.clients[j]? = some c) :
    ∃ c', (s.setClient i p)[j]? = some c' ∧ c'.call = c.call ∧ (j = i → c'.prog = p) ∧
      (j ≠ i → c' = c) := by
  unfold Sys.setClient
  rw [List.getElem?_modify, h]
  by_cases hij : i = j
  · exact ⟨{ c with prog := p }, by simp [hij], rfl, fun _ => rfl, fun hn => absurd hij.symm hn⟩
  · exact ⟨c, by simp [hij], rfl, fun e => absurd e.symm hij, fun _ => rfl⟩

theorem setClient_inv {s : Sys σ} {i : Nat} {p : Prog Resp} {c : Client}
    (hi : ∀ (i : Nat) (c : Client), s.clients[i]? = some c → c.prog.Writes (Allowed c.call))
    (hc : s.clients[i]? = some c) (hp : p.Writes (Allowed c.call)) :
    ∀ (j : Nat) (d : Client), (s.setClient i p)[j]? = some d → d.prog.Writes (Allowed d.call) := by
  intro j d hd
  cases hj : s.clients[j]? with
  | none =>
    unfold Sys.setClient at hd
    rw [List.getElem?_modify, hj] at hd
    simp at hd
  | some d' =>
    obtain ⟨c', h1, h2, h3, h4⟩ := setClient_keeps (i := i) (p := p) hj
    rw [h1] at hd
    cases hd
    by_cases hij : j = i
    · subst hij
      rw [hc] at hj
      cases hj
      rw [h3 rfl, h2]
      exact hp
    · rw [h4 hij]
      exact hi j d' hj

theorem trace_mono {s : Sys σ} {cs : List Client}
    (hm : ∀ (i : Nat) (c : Client), s.clients[i]? = some c → ∃ c', cs[i]? = some c' ∧ c'.call = c.call)
    {t : Tid} {bs : List UInt8} (h : Harmless bs ∨
      ∃ (i : Nat) (c : Client), t = .client i ∧ s.clients[i]? = some c ∧ MayCommand c.call bs) :
    Harmless bs ∨ ∃ (i : Nat) (c : Client), t = .client i ∧ cs[i]? = some c ∧
      MayCommand c.call bs := by
  rcases h with h | ⟨i, c, h1, h2, h3⟩
  · exact .inl h
  · obtain ⟨c', h4, h5⟩ := hm i c h2
    exact .inr ⟨i, c', h1, h4, by rw [h5]; exact h3⟩

theorem winv_step {S : Setup σ} {s s' : Sys σ} (hi : WInv s) (h : Step S s s') : WInv s' := by
  cases h with
  | work hw =>
    cases hw with
    | client i c a p sh hc hn ha =>
      obtain ⟨h1, h2⟩ := (hi.client i c hc).next hn
      have hm : ∀ (j : Nat) (d : Client), s.clients[j]? = some d →
          ∃ d', (s.setClient i p)[j]? = some d' ∧ d'.call = d.call := fun j d hd =>
        have ⟨d', h3, h4, _⟩ := setClient_keeps (i := i) (p := p) hd
        ⟨d', h3, h4⟩
      refine ⟨hi.worker, setClient_inv hi.client hc h1, ?_⟩
      intro t bs r ht
      simp only [acts_trace ha, List.mem_append, List.mem_singleton] at ht
      rcases ht with ht | ht
      · exact trace_mono hm (hi.trace t bs r ht)
      · cases ht
        rcases h2 bs r rfl with h | h
        · exact .inl h
        · obtain ⟨d', h3, h4⟩ := hm i c hc
          exact .inr ⟨i, d', rfl, h3, by rw [h4]; exact h⟩
    | worker a p sh hn ha =>
      obtain ⟨h1, h2⟩ := hi.worker.next hn
      refine ⟨h1, hi.client, ?_⟩
      intro t bs r ht
      simp only [acts_trace ha, List.mem_append, List.mem_singleton] at ht
      rcases ht with ht | ht
      · exact hi.trace t bs r ht
      · cases ht
        exact .inl (h2 bs r rfl)
    | flush i c t p hc hn hw =>
      have hm : ∀ (j : Nat) (d : Client), s.clients[j]? = some d →
          ∃ d', (s.setClient i p)[j]? = some d' ∧ d'.call = d.call := fun j d hd =>
        have ⟨d', h3, h4, _⟩ := setClient_keeps (i := i) (p := p) hd
        ⟨d', h3, h4⟩
      refine ⟨writes_flush t, setClient_inv hi.client hc ((hi.client i c hc).next hn).1, ?_⟩
      intro u bs r hu
      simp only [List.mem_append, List.mem_singleton] at hu
      rcases hu with hu | hu
      · exact trace_mono hm (hi.trace u bs r hu)
      · cases hu
    | flushed i c b p q hc hn hw =>
      have hm : ∀ (j : Nat) (d : Client), s.clients[j]? = some d →
          ∃ d', (s.setClient i p)[j]? = some d' ∧ d'.call = d.call := fun j d hd =>
        have ⟨d', h3, h4, _⟩ := setClient_keeps (i := i) (p := p) hd
        ⟨d', h3, h4⟩
      refine ⟨(hi.worker.next hw).1, setClient_inv hi.client hc ((hi.client i c hc).next hn).1, ?_⟩
      intro u bs r hu
      simp only [List.mem_append, List.mem_cons, List.not_mem_nil, or_false] at hu
      rcases hu with hu | hu | hu
      · exact trace_mono hm (hi.trace u bs r hu)
      · cases hu
      · cases hu
  | tick k hw => exact ⟨writes_tick k, hi.client, hi.trace⟩
  | arrive c hc =>
    have hm : ∀ (j : Nat) (d : Client), s.clients[j]? = some d →
        ∃ d', (s.clients ++ [{ call := c, prog := c.prog S.cv }])[j]? = some d' ∧
          d'.call = d.call := by
      intro j d hd
      exact ⟨d, by rw [List.getElem?_append_left (List.getElem?_eq_some_iff.1 hd).1]; exact hd, rfl⟩
    refine ⟨hi.worker, ?_, fun t bs r ht => trace_mono hm (hi.trace t bs r ht)⟩
    intro i d hd
    by_cases hl : i < s.clients.length
    · rw [List.getElem?_append_left hl] at hd
      exact hi.client i d hd
    · rw [List.getElem?_append_right (by omega)] at hd
      match hk : i - s.clients.length with
      | 0 =>
        rw [hk] at hd
        cases hd
        exact writes_call S.cv c
      | k + 1 => rw [hk] at hd; simp at hd
  | environment line ns he => exact ⟨hi.worker, hi.client, hi.trace⟩

theorem winv {S : Setup σ} {w : World σ} {s : Sys σ} (h : Reachable S (Sys.initial w) s) :
    WInv s := by
  generalize hs : Sys.initial w = s₀ at h
  induction h with
  | start =>
    subst hs
    exact ⟨trivial, fun i c h => by simp [Sys.initial] at h, fun t bs r h => by simp [Sys.initial] at h⟩
  | step h hst ih => exact winv_step ih hst

end Comfo
