import Verif.Lemmas.Neutral
import Verif.Lemmas.Interleave
import Verif.Lemmas.Steps
import Verif.Spec.Hold
/-!
Helper lemmas: rules with a neutral ghost state hold for every action of every goroutine
(`neutral_trace`); what goroutines do between taking the lock of a cache and giving it back.
-/
namespace Comfo
open Spec

/-- The ghost states are what the trace makes of them, and all actions have kept to the rules. -/
structure Kept (R : Rules γ) (g₀ : γ) (g : Tid → γ) (trace : List (Tid × Act)) : Prop where
  state : ∀ t, g t = (actsOf t trace).foldl R.post g₀
  kept : ∀ t pre a post, actsOf t trace = pre ++ a :: post → R.must (pre.foldl R.post g₀) a

theorem actsOf_snoc (u t : Tid) (a : Act) (tr : List (Tid × Act)) :
    actsOf u (tr ++ [(t, a)]) = actsOf u tr ++ if t = u then [a] else [] := by
  by_cases h : t = u <;> simp [actsOf, h]

theorem kept_snoc {R : Rules γ} {g₀ : γ} {g : Tid → γ} {tr : List (Tid × Act)}
    (h : Kept R g₀ g tr) {t : Tid} {a : Act} (hm : R.must (g t) a) :
    Kept R g₀ (upd g t (R.post (g t) a)) (tr ++ [(t, a)]) where
  state u := by
    rw [actsOf_snoc]
    by_cases e : t = u
    · subst e
      rw [upd_same, if_pos rfl, List.foldl_append, ← h.state]; rfl
    · rw [upd_other _ _ (Ne.symm e), if_neg e, List.append_nil]
      exact h.state u
  kept u pre b post hb := by
    rw [actsOf_snoc] at hb
    by_cases e : t = u
    · subst e
      rw [if_pos rfl] at hb
      rcases List.eq_nil_or_concat post with rfl | ⟨post', c, rfl⟩
      · obtain ⟨h1, h2⟩ := List.append_inj' hb rfl
        cases h2
        rw [← h1, ← h.state]; exact hm
      · rw [show pre ++ b :: post'.concat c = (pre ++ b :: post') ++ [c] by simp] at hb
        obtain ⟨h1, -⟩ := List.append_inj' hb rfl
        exact h.kept _ _ _ _ h1
    · rw [if_neg e, List.append_nil] at hb
      exact h.kept _ _ _ _ hb

theorem upd_id {g : Tid → γ} {t : Tid} {x : γ} (h : g t = x) : upd g t x = g := by
  funext u
  by_cases e : u = t
  · subst e; rw [upd_same, h]
  · rw [upd_other _ _ e]

/-- The invariant. -/
def keptScheme (S : Setup σ) {R : Rules γ} {g₀ : γ} (N : Neutral R g₀) (hm : ∀ g a, R.may g a) :
    Scheme S γ where
  R := R
  Q _ g _ := g = g₀
  unborn := g₀
  born _ := g₀
  idle := g₀
  flushing _ := g₀
  K _ _ := True
  k_born _ := trivial
  k_post _ := trivial
  G g sh := Kept R g₀ g sh.trace
  ok_call c _ := N.call S.cv c
  ok_tick k := N.onTick k rfl
  ok_flush t := N.flushCaches t rfl
  may_act _ _ := hm _ _
  g_act h ha hmu := by rw [acts_trace ha]; exact kept_snoc h hmu
  g_env h _ := h
  g_born h _ hi := by rw [upd_id hi]; exact h
  may_send _ _ := hm _ _
  g_send {g sh i t} h hw hmu := by
    rw [upd_id (by rw [upd_other _ _ (by simp)]; exact hw)]
    exact kept_snoc h hmu
  may_answer _ := hm _ _
  may_recv _ _ _ := hm _ _
  g_recv {g sh i b} h hw hc := by
    have h1 := kept_snoc h hw
    have h2 := kept_snoc h1 (t := .client i) (a := .recvFlushed b)
      (by rw [upd_other _ _ (by simp)]; exact hc)
    have e : upd (upd g .worker (R.post (g .worker) (.sendFlushed b))) (.client i)
        (R.post (upd g .worker (R.post (g .worker) (.sendFlushed b)) (.client i)) (.recvFlushed b)) =
        upd (upd g (.client i) (R.post (g (.client i)) (.recvFlushed b))) .worker
          (R.post (g .worker) (.sendFlushed b)) := by
      funext u
      by_cases e1 : u = .worker
      · subst e1
        rw [upd_other _ _ (by simp), upd_same, upd_same]
      · by_cases e2 : u = .client i
        · subst e2
          rw [upd_same, upd_other _ _ (by simp), upd_other _ _ (by simp), upd_same]
        · rw [upd_other _ _ e2, upd_other _ _ e1, upd_other _ _ e1, upd_other _ _ e2]
    rw [e] at h2
    simpa using h2

/-- Rules with a neutral ghost state hold for every action of every goroutine. -/
theorem neutral_trace {S : Setup σ} {R : Rules γ} {g₀ : γ} (N : Neutral R g₀)
    (hm : ∀ g a, R.may g a) {w : World σ} {s : Sys σ} (h : Reachable S (Sys.initial w) s) :
    ∃ g, Kept R g₀ g s.sh.trace ∧ (keptScheme S N hm).Inv g s := by
  obtain ⟨g, hi⟩ := (keptScheme S N hm).sound (w := w)
    ⟨fun t => by cases t <;> rfl, fun t pre a post h => by simp [actsOf] at h⟩ h
  exact ⟨g, hi.glob, hi⟩

/-! ## Inside the lock of a cache -/

/-- The lock of a cache that is held, whether exclusively, and what has been done since. -/
abbrev G6 := Option (CacheId × Bool × List Act)

def must6 : G6 → Act → Prop
  | none, .unlock (.cache _) | none, .runlock (.cache _) => False
  | none, _ => True
  | some (id, true, _), .unlock (.cache i) => i = id
  | some (id, false, _), .runlock (.cache i) => i = id
  | some (id, true, acts), a => Errand id (acts ++ [a])
  | some (id, false, acts), a => Glance id (acts ++ [a])

def post6 : G6 → Act → G6
  | none, .lock (.cache id) => some (id, true, [])
  | none, .rlock (.cache id) => some (id, false, [])
  | none, _ => none
  | some _, .unlock (.cache _) | some _, .runlock (.cache _) => none
  | some (id, b, acts), a => some (id, b, acts ++ [a])

def R6 : Rules G6 where
  must := must6
  post := post6

theorem r6_query {Q : G6 → Packet × Option Err → Prop} (p : Packet)
    (hQ : ∀ q e, (e = none → p.expect = true → q.command = p.command + 1) → Q none (q, e)) :
    (queryPacketP p).Ok R6 Q none := by
  unfold queryPacketP
  refine fun _ => ⟨trivial, ?_⟩
  show Prog.Ok R6 Q _ none
  split
  · exact fun _ => ⟨trivial, hQ _ _ (by simp)⟩
  · rintro ⟨n, err⟩ -
    refine ⟨trivial, ?_⟩
    show Prog.Ok R6 Q _ none
    cases err with
    | some e => exact fun _ => ⟨trivial, hQ _ _ (by simp)⟩
    | none =>
      rintro ⟨q, err⟩ -
      refine ⟨trivial, ?_⟩
      show Prog.Ok R6 Q _ none
      cases err with
      | some e => exact fun _ => ⟨trivial, hQ _ _ (by simp)⟩
      | none =>
        by_cases hc : p.expect = true ∧ q.command ≠ p.command + 1
        · simp only [if_pos hc]
          exact fun _ => ⟨trivial, hQ _ _ (by simp)⟩
        · have hc' : p.expect = true → q.command = p.command + 1 := by
            intro h
            by_cases h2 : q.command = p.command + 1
            · exact h2
            · exact absurd ⟨h, h2⟩ hc
          simp only [if_neg hc]
          rintro ⟨m, err⟩ -
          refine ⟨trivial, ?_⟩
          show Prog.Ok R6 Q _ none
          cases err with
          | some e => exact fun _ => ⟨trivial, hQ _ _ (by simp)⟩
          | none => exact fun _ => ⟨trivial, hQ _ _ fun _ => hc'⟩

/-- Nothing has been sent yet. -/
structure Before (id : CacheId) (acts : List Act) : Prop where
  home : ∀ a ∈ acts, AtHome id a
  silent : written acts = []
  reads : reads acts = 0

/-- The query of a refresh. -/
theorem r6_refresh_query {id : CacheId} {Q : G6 → Packet × Option Err → Prop} {acts : List Act}
    (hb : Before id acts)
    (hQ : ∀ acts' q e, Errand id acts' → (e = none → q.command = requestCode id + 1) →
      Q (some (id, true, acts')) (q, e)) :
    (queryPacketP { command := requestCode id, expect := true }).Ok R6 Q (some (id, true, acts)) := by
  obtain ⟨h1, h2, h3⟩ := hb
  have ext : ∀ as : List Act, (∀ a ∈ as, AtHome id a) →
      written as <+: [frame (requestCode id) [], ack] → reads as ≤ 1 → Errand id (acts ++ as) := by
    intro as k1 k2 k3
    refine ⟨?_, ?_, ?_⟩
    · intro a ha
      rcases List.mem_append.1 ha with h | h
      · exact h1 a h
      · exact k1 a h
    · have : written (acts ++ as) = written as := by
        simp only [written, List.filterMap_append]
        rw [show List.filterMap _ acts = [] from h2]; rfl
      rw [this]; exact k2
    · have : reads (acts ++ as) = reads acts + reads as := by simp [reads]
      omega
  have step : ∀ (as : List Act) (x : Act), (∀ a ∈ as ++ [x], AtHome id a) →
      written (as ++ [x]) <+: [frame (requestCode id) [], ack] → reads (as ++ [x]) ≤ 1 →
      Errand id ((acts ++ as) ++ [x]) := by
    intro as x k1 k2 k3
    rw [List.append_assoc]; exact ext _ k1 k2 k3
  have fin : ∀ (as : List Act) (q : Packet) (e : Option Err),
      (∀ a ∈ as, AtHome id a) → written as <+: [frame (requestCode id) [], ack] → reads as ≤ 1 →
      (e = none → q.command = requestCode id + 1) →
      (Prog.unlock .pm (.ret (q, e))).Ok R6 Q (some (id, true, acts ++ as)) := by
    intro as q e k1 k2 k3 he _
    have : Errand id ((acts ++ as) ++ [.unlock .pm]) := by
      refine step as _ ?_ ?_ ?_
      · intro a ha
        rcases List.mem_append.1 ha with h | h
        · exact k1 a h
        · rw [List.mem_singleton.1 h]; trivial
      · simpa [written] using k2
      · simpa [reads] using k3
    exact ⟨this, hQ _ _ _ this he⟩
  unfold queryPacketP
  refine fun _ => ⟨ext [.lock .pm] (by simp [AtHome]) (by simp [written]) (by simp [reads]), ?_⟩
  show Prog.Ok R6 Q _ (some (id, true, acts ++ [.lock .pm]))
  rw [marshal_ok _ (by simp)]
  simp only [frame_eq]
  rintro ⟨n, err⟩ -
  refine ⟨step [.lock .pm] (.wrote (frame (requestCode id) []) (n, err)) (by simp [AtHome])
    (by simp [written]) (by simp [reads]), ?_⟩
  show Prog.Ok R6 Q _ (some (id, true, (acts ++ [.lock .pm]) ++
    [.wrote (frame (requestCode id) []) (n, err)]))
  rw [List.append_assoc]
  cases err with
  | some e =>
    exact fin [.lock .pm, .wrote (frame (requestCode id) []) (n, some e)] _ _ (by simp [AtHome])
      (by simp [written]) (by simp [reads]) (by simp)
  | none =>
    rintro ⟨q, err⟩ -
    refine ⟨step [.lock .pm, .wrote (frame (requestCode id) []) (n, none)] (.got true (q, err))
      (by simp [AtHome]) (by simp [written]) (by simp [reads]), ?_⟩
    show Prog.Ok R6 Q _ (some (id, true, (acts ++ [.lock .pm,
      .wrote (frame (requestCode id) []) (n, none)]) ++ [.got true (q, err)]))
    rw [List.append_assoc]
    cases err with
    | some e =>
      exact fin [.lock .pm, .wrote (frame (requestCode id) []) (n, none), .got true (q, some e)] _ _
        (by simp [AtHome]) (by simp [written]) (by simp [reads]) (by simp)
    | none =>
      by_cases hc : q.command = requestCode id + 1
      · simp only [hc, ne_eq, not_true, and_false, if_false]
        rintro ⟨m, err⟩ -
        have w : written [.lock .pm, .wrote (frame (requestCode id) []) (n, none),
            .got true (q, none), .wrote pktAck (m, err)] <+: [frame (requestCode id) [], ack] :=
          List.prefix_refl _
        refine ⟨step [.lock .pm, .wrote (frame (requestCode id) []) (n, none),
          .got true (q, none)] (.wrote pktAck (m, err)) (by simp [AtHome]) w (by simp [reads]), ?_⟩
        show Prog.Ok R6 Q _ (some (id, true, (acts ++ [.lock .pm,
          .wrote (frame (requestCode id) []) (n, none), .got true (q, none)]) ++
          [.wrote pktAck (m, err)]))
        rw [List.append_assoc]
        cases err with
        | some e =>
          exact fin [.lock .pm, .wrote (frame (requestCode id) []) (n, none),
            .got true (q, none), .wrote pktAck (m, some e)] _ _ (by simp [AtHome]) w
            (by simp [reads]) (by simp)
        | none =>
          exact fin [.lock .pm, .wrote (frame (requestCode id) []) (n, none),
            .got true (q, none), .wrote pktAck (m, none)] _ _ (by simp [AtHome]) w
            (by simp [reads]) (fun _ => hc)
      · simp only [ne_eq, hc, not_false_eq_true, and_self, if_true]
        exact fin [.lock .pm, .wrote (frame (requestCode id) []) (n, none), .got true (q, none)] _ _
          (by simp [AtHome]) (by simp [written]) (by simp [reads]) (by simp)

theorem r6_update {Q : G6 → Unit → Prop} (id : CacheId) (force : Bool) (hQ : Q none ()) :
    (update id force).Ok R6 Q none := by
  have hu : ∀ acts, (Prog.unlock (.cache id) (.ret ())).Ok R6 Q (some (id, true, acts)) :=
    fun _ _ => ⟨rfl, hQ⟩
  have small : ∀ acts, Before id acts → Errand id acts := fun acts h =>
    ⟨h.home, by rw [h.silent]; exact List.nil_prefix, by rw [h.reads]; exact Nat.zero_le _⟩
  have refresh : ∀ now acts, Before id acts → (Prog.note id now <| id.fetch.bind fun (v, err) =>
      match err with
      | none => .store id { val := v, last := now } <| .unlock (.cache id) <| .ret ()
      | some _ => .unlock (.cache id) <| .ret ()).Ok R6 Q (some (id, true, acts)) := by
    intro now acts hb _
    have hb' : Before id (acts ++ [.note id now]) := by
      refine ⟨?_, ?_, ?_⟩
      · intro a ha
        rcases List.mem_append.1 ha with h | h
        · exact hb.home a h
        · rw [List.mem_singleton.1 h]; rfl
      · simpa [written] using hb.silent
      · simpa [reads] using hb.reads
    refine ⟨small _ hb', ok_bind (ok_fetch id (r6_refresh_query hb' ?_))⟩
    rintro acts' q e he h
    refine ⟨h, fun v e' _ _ => ?_⟩
    cases e' with
    | none =>
      refine fun _ => ⟨⟨?_, ?_, ?_⟩, hu _⟩
      · intro a ha
        rcases List.mem_append.1 ha with h | h
        · exact he.home a h
        · rw [List.mem_singleton.1 h]; rfl
      · simpa [written] using he.query
      · simpa [reads] using he.once
    | some _ => exact hu _
  unfold update
  have b1 : ∀ now, Before id [.now now] := fun now => ⟨by simp [AtHome], rfl, rfl⟩
  refine fun _ => ⟨trivial, fun now _ => ⟨small _ (b1 now), ?_⟩⟩
  show Prog.Ok R6 Q _ (some (id, true, [.now now]))
  cases force with
  | true => exact refresh now _ (b1 now)
  | false =>
    have b2 : ∀ c, Before id [.now now, .load id c] := fun c => ⟨by simp [AtHome], rfl, rfl⟩
    refine fun c _ => ⟨small _ (b2 c), ?_⟩
    show Prog.Ok R6 Q _ (some (id, true, [.now now, .load id c]))
    by_cases hs : (!isStale c.last now) = true
    · simp only [hs, if_true]; exact hu _
    · simp only [hs]; exact refresh now _ (b2 c)

theorem neutral6 : Neutral R6 none where
  plain a ha := by
    cases a with
    | lock l => cases l <;> first | exact ⟨trivial, rfl⟩ | exact absurd ha (by simp [Plain])
    | unlock l => cases l <;> first | exact ⟨trivial, rfl⟩ | exact absurd ha (by simp [Plain])
    | rlock l => cases l <;> first | exact ⟨trivial, rfl⟩ | exact absurd ha (by simp [Plain])
    | runlock l => cases l <;> first | exact ⟨trivial, rfl⟩ | exact absurd ha (by simp [Plain])
    | _ => exact ⟨trivial, rfl⟩
  query p Q hQ := r6_query p hQ
  upd id force Q hQ := r6_update id force hQ
  proto id conv Q hQ := fun _ => ⟨trivial, fun c _ =>
    ⟨⟨by simp [AtHome], by simp [written], by simp [reads]⟩, fun _ => ⟨rfl, hQ _⟩⟩⟩
  peek id k Q hk := fun _ => ⟨trivial, fun c _ =>
    ⟨fun a ha => ⟨c, by simpa using ha⟩, fun _ => ⟨rfl, hk c⟩⟩⟩

/-- A lock that is held was taken and has not been given back. -/
theorem held_trace {S : Setup σ} {w : World σ} {s : Sys σ} (hr : Reachable S (Sys.initial w) s) :
    ∀ h ∈ s.sh.held, ∃ pre post, s.sh.trace = pre ++ (h.tid, taking h.lock h.excl) :: post ∧
      releasing h.lock h.excl ∉ actsOf h.tid post := by
  induction hr with
  | start => intro h hm; cases hm
  | @step s s' hr hs ih =>
    obtain ⟨g, hi⟩ := inv1 hr
    have hG : Glob1 g s.sh := hi.glob
    have ext : ∀ (h : Held) (e : List (Tid × Act)), h ∈ s.sh.held → releasing h.lock h.excl ∉ actsOf h.tid e →
        ∃ pre post, s.sh.trace ++ e = pre ++ (h.tid, taking h.lock h.excl) :: post ∧
          releasing h.lock h.excl ∉ actsOf h.tid post := by
      intro h e hm he
      obtain ⟨pre, post, h1, h2⟩ := ih h hm
      refine ⟨pre, post ++ e, by rw [h1]; simp, ?_⟩
      rw [actsOf_append, List.mem_append]
      rintro (h | h)
      · exact h2 h
      · exact he h
    have rel : ∀ h : Held, releasing h.lock h.excl = .unlock h.lock ∨ releasing h.lock h.excl = .runlock h.lock := by
      intro h; unfold releasing; split <;> simp
    have act : ∀ {t a sh'}, Acts S.line t a s.sh sh' → ∀ h ∈ sh'.held,
        ∃ pre post, sh'.trace = pre ++ (h.tid, taking h.lock h.excl) :: post ∧
          releasing h.lock h.excl ∉ actsOf h.tid post := by
      intro t a sh' ha h hm
      rw [acts_trace ha]
      have other : (∀ l, a ≠ .unlock l) → (∀ l, a ≠ .runlock l) → releasing h.lock h.excl ∉ actsOf h.tid [(t, a)] := by
        intro h1 h2 hx
        rcases rel h with e | e
        · rw [e] at hx
          by_cases ht : t = h.tid
          · simp [actsOf, ht] at hx; exact h1 _ hx.symm
          · simp [actsOf, ht] at hx
        · rw [e] at hx
          by_cases ht : t = h.tid
          · simp [actsOf, ht] at hx; exact h2 _ hx.symm
          · simp [actsOf, ht] at hx
      cases ha with
      | @lock l _ =>
        rcases List.mem_cons.1 hm with rfl | hm
        · exact ⟨s.sh.trace, [], rfl, by simp [actsOf]⟩
        · exact ext h _ hm (other (by simp) (by simp))
      | @rlock l _ =>
        rcases List.mem_cons.1 hm with rfl | hm
        · exact ⟨s.sh.trace, [], rfl, by simp [actsOf]⟩
        · exact ext h _ hm (other (by simp) (by simp))
      | @unlock l hl =>
        obtain ⟨hne, hm⟩ := (hG.nodup.mem_erase_iff).1 hm
        refine ext h _ hm fun hx => hne ?_
        by_cases ht : t = h.tid
        · simp only [actsOf, ht, List.filterMap_cons, if_true, List.filterMap_nil,
            List.mem_singleton] at hx
          obtain ⟨hl', he, htid⟩ := h
          cases he
          · cases hx
          · cases hx; simp only at ht; rw [ht]
        · simp [actsOf, ht] at hx
      | @runlock l hl =>
        obtain ⟨hne, hm⟩ := (hG.nodup.mem_erase_iff).1 hm
        refine ext h _ hm fun hx => hne ?_
        by_cases ht : t = h.tid
        · simp only [actsOf, ht, List.filterMap_cons, if_true, List.filterMap_nil,
            List.mem_singleton] at hx
          obtain ⟨hl', he, htid⟩ := h
          cases he
          · cases hx; simp only at ht; rw [ht]
          · cases hx
        · simp [actsOf, ht] at hx
      | _ => exact ext h _ hm (other (by simp) (by simp))
    cases hs with
    | work hw =>
      cases hw with
      | client i c a p sh _ _ ha => exact act ha
      | worker a p sh _ ha => exact act ha
      | flush i c t p =>
        intro h hm
        refine ext h _ hm fun hx => ?_
        have := mem_actsOf.1 hx
        simp only [List.mem_singleton, Prod.mk.injEq] at this
        rcases rel h with e | e <;> rw [e] at this <;> cases this.2
      | flushed i c b p q =>
        intro h hm
        refine ext h _ hm fun hx => ?_
        have := mem_actsOf.1 hx
        simp only [List.mem_cons, List.not_mem_nil, or_false, Prod.mk.injEq] at this
        rcases rel h with e | e <;> rw [e] at this <;> rcases this with ⟨_, h⟩ | ⟨_, h⟩ <;> cases h
    | _ => exact ih

/-- Inside the lock there is one way out. -/
theorem post6_inside {id : CacheId} {b : Bool} {as : List Act} {a : Act}
    (hm : must6 (some (id, b, as)) a) (hr : a ≠ releasing (.cache id) b) :
    post6 (some (id, b, as)) a = some (id, b, as ++ [a]) ∧
      (b = true → Errand id (as ++ [a])) ∧ (b = false → Glance id (as ++ [a])) := by
  have glance : ∀ {a}, Glance id (as ++ [a]) → ∃ c, a = .load id c := fun h => h _ (by simp)
  cases b with
  | true =>
    match a with
    | .unlock (.cache i) => cases hm; exact absurd rfl hr
    | .runlock (.cache i) => exact absurd ((show Errand id _ from hm).home _ List.mem_concat_self) not_false
    | .unlock .temp | .unlock .fan | .unlock .am | .unlock .pm | .runlock .temp | .runlock .fan
    | .runlock .am | .runlock .pm | .lock _ | .rlock _ | .now _ | .sleep _ | .wrote _ _ | .got _ _
    | .load _ _ | .store _ _ | .note _ _ | .sendFlush _ | .recvFlushed _ | .sendFlushed _ =>
      exact ⟨rfl, fun _ => hm, by simp⟩
  | false =>
    match a with
    | .runlock (.cache i) => cases hm; exact absurd rfl hr
    | .unlock (.cache i) => obtain ⟨c, h⟩ := glance hm; cases h
    | .unlock .temp | .unlock .fan | .unlock .am | .unlock .pm | .runlock .temp | .runlock .fan
    | .runlock .am | .runlock .pm | .lock _ | .rlock _ | .now _ | .sleep _ | .wrote _ _ | .got _ _
    | .load _ _ | .store _ _ | .note _ _ | .sendFlush _ | .recvFlushed _ | .sendFlushed _ =>
      exact ⟨rfl, by simp, fun _ => hm⟩

theorem r6_between {id : CacheId} {b : Bool} {acts : List Act} (as : List Act)
    (h0 : (b = true → Errand id as) ∧ (b = false → Glance id as))
    (hk : ∀ pre a post, acts = pre ++ a :: post →
      must6 (pre.foldl post6 (some (id, b, as))) a)
    (hr : releasing (.cache id) b ∉ acts) :
    (b = true → Errand id (as ++ acts)) ∧ (b = false → Glance id (as ++ acts)) := by
  induction acts generalizing as with
  | nil => simpa using h0
  | cons a acts ih =>
    obtain ⟨h1, h2⟩ := post6_inside (hk [] a acts rfl) (fun e => hr (e ▸ List.mem_cons_self))
    have := ih (as ++ [a]) h2 (fun pre x post e => by
      have := hk (a :: pre) x post (by rw [e]; rfl)
      rw [List.foldl_cons, h1] at this
      exact this) (fun h => hr (List.mem_cons_of_mem _ h))
    simpa using this

theorem hold_acts {S : Setup σ} {w : World σ} {s : Sys σ} (hr : Reachable S (Sys.initial w) s)
    {t : Tid} {id : CacheId} {b : Bool} {pre mid rest : List (Tid × Act)}
    (ht : s.sh.trace = pre ++ (t, taking (.cache id) b) :: mid ++ rest)
    (hn : releasing (.cache id) b ∉ actsOf t mid) :
    (b = true → Errand id (actsOf t mid)) ∧ (b = false → Glance id (actsOf t mid)) := by
  obtain ⟨g, hK, -⟩ := neutral_trace neutral6 (fun _ _ => trivial) hr
  have e : actsOf t s.sh.trace =
      actsOf t pre ++ taking (.cache id) b :: (actsOf t mid ++ actsOf t rest) := by
    rw [ht]; simp [actsOf]
  have h0 : (actsOf t pre).foldl post6 none = none := by
    have := hK.kept t _ _ _ e
    match hg : (actsOf t pre).foldl post6 none with
    | none => rfl
    | some (i, true, as) =>
      rw [show List.foldl R6.post none (actsOf t pre) = _ from hg] at this
      cases b with
      | true => exact absurd ((show Errand i _ from this).home _ List.mem_concat_self) not_false
      | false => exact absurd ((show Errand i _ from this).home _ List.mem_concat_self) not_false
    | some (i, false, as) =>
      rw [show List.foldl R6.post none (actsOf t pre) = _ from hg] at this
      cases b with
      | true => obtain ⟨c, h⟩ := (show Glance i _ from this) _ List.mem_concat_self; cases h
      | false => obtain ⟨c, h⟩ := (show Glance i _ from this) _ List.mem_concat_self; cases h
  have h1 : (actsOf t pre ++ [taking (.cache id) b]).foldl post6 none =
      some (id, b, []) := by
    rw [List.foldl_append, h0]
    cases b <;> rfl
  have := r6_between (id := id) (b := b) (acts := actsOf t mid) []
    ⟨fun _ => ⟨by simp, by simp [written], by simp [reads]⟩, fun _ => by simp [Glance]⟩
    (fun p a q hq => by
      have := hK.kept t (actsOf t pre ++ taking (.cache id) b :: p) a
        (q ++ actsOf t rest) (by rw [e, hq]; simp)
      rw [show actsOf t pre ++ taking (.cache id) b :: p =
        (actsOf t pre ++ [taking (.cache id) b]) ++ p by simp, List.foldl_append] at this
      rw [show List.foldl R6.post none _ = _ from h1] at this
      exact this) hn
  simpa using this

end Comfo
