import Verif.Lemmas.Pace
/-!
Helper lemmas for C106: how much is done while the line or the lock of a cache is held.
-/
namespace Comfo.Pace
open Spec Props

/-! ## The rules -/

/-- What has been done since the lock was taken. -/
abbrev GB := Option (List Act)

/-- The lock `l` is taken. -/
def takes (l : Lock) (b : Bool) : Act → Bool
  | .lock l' => b && l' == l
  | .rlock l' => !b && l' == l
  | _ => false

/-- The lock `l` is given back. -/
def gives (l : Lock) (b : Bool) : Act → Bool
  | .unlock l' => b && l' == l
  | .runlock l' => !b && l' == l
  | _ => false

def mustB (l : Lock) (b : Bool) (P : List Act → Prop) (g : GB) (a : Act) : Prop :=
  match g with
  | none => True
  | some as => takes l b a = false ∧ (gives l b a = false → P (as ++ [a]))

def postB (l : Lock) (b : Bool) (g : GB) (a : Act) : GB :=
  if takes l b a then some [] else if gives l b a then none else g.map (· ++ [a])

def RB (l : Lock) (b : Bool) (P : List Act → Prop) : Rules GB where
  must := mustB l b P
  post := postB l b

theorem takes_iff {l : Lock} {b : Bool} {a : Act} : takes l b a = true ↔ a = taking l b := by
  cases a <;> cases b <;> simp [takes, taking]

theorem gives_iff {l : Lock} {b : Bool} {a : Act} : gives l b a = true ↔ a = releasing l b := by
  cases a <;> cases b <;> simp [gives, releasing]

section
variable {l : Lock} {b : Bool} {P : List Act → Prop}

theorem post_none {a : Act} (h : takes l b a = false) : (RB l b P).post none a = none := by
  simp [RB, postB, h]

/-- Rules that forbid to take the lock. -/
def Off (l : Lock) (b : Bool) : Rules Unit where
  must _ a := takes l b a = false
  post g _ := g

/-- Outside of the lock everything is allowed. -/
theorem okB_off {Q : GB → α → Prop} {p : Prog α} (h : p.Ok (Off l b) (fun _ a => Q none a) ()) :
    p.Ok (RB l b P) Q none := by
  induction p with
  | ret a => exact h
  | panic => exact h
  | now k ih => exact fun t hm => ⟨trivial, by rw [post_none (h t trivial).1]; exact ih _ (h t trivial).2⟩
  | write bs k ih => exact fun t hm => ⟨trivial, by rw [post_none (h t trivial).1]; exact ih _ (h t trivial).2⟩
  | read bs k ih => exact fun t hm => ⟨trivial, by rw [post_none (h t trivial).1]; exact ih _ (h t trivial).2⟩
  | load bs k ih => exact fun t hm => ⟨trivial, by rw [post_none (h t trivial).1]; exact ih _ (h t trivial).2⟩
  | recvFlushed k ih => exact fun t hm => ⟨trivial, by rw [post_none (h t trivial).1]; exact ih _ (h t trivial).2⟩
  | _ => rename_i ih; exact fun hm => ⟨trivial, by rw [post_none (h trivial).1]; exact ih (h trivial).2⟩

theorem off_query {Q : Unit → Packet × Option Err → Prop} (hl : takes l b (.lock .pm) = false) (p : Packet)
    (hQ : ∀ q e, (e = none → p.expect = true → q.command = p.command + 1) → Q () (q, e)) :
    (queryPacketP p).Ok (Off l b) Q () := by
  unfold queryPacketP
  refine fun _ => ⟨hl, ?_⟩
  show Prog.Ok (Off l b) Q _ ()
  split
  · exact fun _ => ⟨rfl, hQ _ _ (by simp)⟩
  · rintro ⟨n, err⟩ -
    refine ⟨rfl, ?_⟩
    show Prog.Ok (Off l b) Q _ ()
    cases err with
    | some e => exact fun _ => ⟨rfl, hQ _ _ (by simp)⟩
    | none =>
      rintro ⟨q, err⟩ -
      refine ⟨rfl, ?_⟩
      show Prog.Ok (Off l b) Q _ ()
      cases err with
      | some e => exact fun _ => ⟨rfl, hQ _ _ (by simp)⟩
      | none =>
        by_cases hc : p.expect = true ∧ q.command ≠ p.command + 1
        · simp only [if_pos hc]
          exact fun _ => ⟨rfl, hQ _ _ (by simp)⟩
        · have hc' : p.expect = true → q.command = p.command + 1 := by
            intro h
            by_cases h2 : q.command = p.command + 1
            · exact h2
            · exact absurd ⟨h, h2⟩ hc
          simp only [if_neg hc]
          rintro ⟨m, err⟩ -
          refine ⟨rfl, ?_⟩
          show Prog.Ok (Off l b) Q _ ()
          cases err with
          | some e => exact fun _ => ⟨rfl, hQ _ _ (by simp)⟩
          | none => exact fun _ => ⟨rfl, hQ _ _ fun _ => hc'⟩

theorem off_update {Q : Unit → Unit → Prop} (hl : takes l b (.lock .pm) = false) (id : CacheId)
    (hi : takes l b (.lock (.cache id)) = false) (force : Bool)
    (hQ : Q () ()) : (update id force).Ok (Off l b) Q () := by
  have hu : (Prog.unlock (.cache id) (.ret ())).Ok (Off l b) Q () := fun _ => ⟨rfl, hQ⟩
  have refresh : ∀ now, (Prog.note id now <| id.fetch.bind fun (v, err) =>
      match err with
      | none => .store id { val := v, last := now } <| .unlock (.cache id) <| .ret ()
      | some _ => .unlock (.cache id) <| .ret ()).Ok (Off l b) Q () := by
    intro now _
    refine ⟨rfl, ok_bind (ok_fetch id (off_query hl _ fun _ _ h => ⟨fun he => h he rfl,
      fun v e _ _ => ?_⟩))⟩
    cases e with
    | none => exact fun _ => ⟨rfl, hu⟩
    | some _ => exact hu
  unfold update
  refine fun _ => ⟨hi, fun now _ => ⟨rfl, ?_⟩⟩
  show Prog.Ok (Off l b) Q _ ()
  cases force with
  | true => exact refresh now
  | false =>
    refine fun c _ => ⟨rfl, ?_⟩
    show Prog.Ok (Off l b) Q _ ()
    by_cases hs : (!isStale c.last now) = true
    · simp only [hs, if_true]; exact hu
    · simp only [hs]; exact refresh now

end

/-! ## The line -/

/-- What is done on the line in one go. -/
def Talk (as : List Act) : Prop :=
  as.length ≤ 3 ∧ reads as ≤ 1 ∧ ∀ a ∈ as, (∃ bs r, a = .wrote bs r) ∨ ∃ e r, a = .got e r

theorem line_query {Q : GB → Packet × Option Err → Prop} (p : Packet)
    (hQ : ∀ q e, (e = none → p.expect = true → q.command = p.command + 1) → Q none (q, e)) :
    (queryPacketP p).Ok (RB .pm true Talk) Q none := by
  have fin : ∀ (as : GB) (q : Packet) (e : Option Err), (e = none → p.expect = true →
      q.command = p.command + 1) →
      (Prog.unlock .pm (.ret (q, e))).Ok (RB .pm true Talk) Q as := by
    intro as q e h _
    refine ⟨?_, hQ _ _ h⟩
    cases as with
    | none => trivial
    | some as => exact ⟨rfl, fun h => by cases h⟩
  unfold queryPacketP
  refine fun _ => ⟨trivial, ?_⟩
  show Prog.Ok (RB .pm true Talk) Q _ (some [])
  split
  · exact fin _ _ _ (by simp)
  · rename_i bs _
    rintro ⟨n, err⟩ -
    refine ⟨⟨rfl, fun _ => ⟨by simp, by simp [reads], by simp⟩⟩, ?_⟩
    show Prog.Ok (RB .pm true Talk) Q _ (some [_])
    cases err with
    | some e => exact fin _ _ _ (by simp)
    | none =>
      rintro ⟨q, err⟩ -
      refine ⟨⟨rfl, fun _ => ⟨by simp, by simp [reads], by simp⟩⟩, ?_⟩
      show Prog.Ok (RB .pm true Talk) Q _ (some [_, _])
      cases err with
      | some e => exact fin _ _ _ (by simp)
      | none =>
        by_cases hc : p.expect = true ∧ q.command ≠ p.command + 1
        · simp only [if_pos hc]
          exact fin _ _ _ (by simp)
        · have hc' : p.expect = true → q.command = p.command + 1 := by
            intro h
            by_cases h2 : q.command = p.command + 1
            · exact h2
            · exact absurd ⟨h, h2⟩ hc
          simp only [if_neg hc]
          rintro ⟨m, err⟩ -
          refine ⟨⟨rfl, fun _ => ⟨by simp, by simp [reads], by simp⟩⟩, ?_⟩
          show Prog.Ok (RB .pm true Talk) Q _ (some [_, _, _])
          cases err with
          | some e => exact fin _ _ _ (by simp)
          | none => exact fin _ _ _ fun _ => hc'

theorem line_update {Q : GB → Unit → Prop} (id : CacheId) (force : Bool) (hQ : Q none ()) :
    (update id force).Ok (RB .pm true Talk) Q none := by
  have hu : (Prog.unlock (.cache id) (.ret ())).Ok (RB .pm true Talk) Q none := fun _ => ⟨trivial, hQ⟩
  have refresh : ∀ now, (Prog.note id now <| id.fetch.bind fun (v, err) =>
      match err with
      | none => .store id { val := v, last := now } <| .unlock (.cache id) <| .ret ()
      | some _ => .unlock (.cache id) <| .ret ()).Ok (RB .pm true Talk) Q none := by
    intro now _
    refine ⟨trivial, ok_bind (ok_fetch id (line_query _ fun _ _ h => ⟨fun he => h he rfl,
      fun v e _ _ => ?_⟩))⟩
    cases e with
    | none => exact fun _ => ⟨trivial, hu⟩
    | some _ => exact hu
  unfold update
  refine fun _ => ⟨trivial, fun now _ => ⟨trivial, ?_⟩⟩
  show Prog.Ok (RB .pm true Talk) Q _ none
  cases force with
  | true => exact refresh now
  | false =>
    refine fun c _ => ⟨trivial, ?_⟩
    show Prog.Ok (RB .pm true Talk) Q _ none
    by_cases hs : (!isStale c.last now) = true
    · simp only [hs, if_true]; exact hu
    · simp only [hs]; exact refresh now

theorem neutral_line : Neutral (RB .pm true Talk) none where
  plain a ha := by
    by_cases h : takes .pm true a = true
    · rw [takes_iff.1 h] at ha; exact absurd ha not_false
    · exact ⟨trivial, post_none (by simpa using h)⟩
  query p Q hQ := line_query p hQ
  upd id force Q hQ := line_update id force hQ
  proto id conv Q hQ := fun _ => ⟨trivial, fun c _ => ⟨trivial, fun _ => ⟨trivial, hQ _⟩⟩⟩
  peek id k Q hk := fun _ => ⟨trivial, fun c _ => ⟨trivial, fun _ => ⟨trivial, hk c⟩⟩⟩

/-! ## The lock of a cache -/

def isPm : Act → Bool
  | .lock .pm => true
  | _ => false

def isSleep : Act → Bool
  | .sleep _ => true
  | _ => false

/-- What is done while the lock of a cache is held. -/
structure Chore (as : List Act) : Prop where
  few : as.length ≤ 9
  once : reads as ≤ 1
  line : (as.filter isPm).length ≤ 1
  awake : as.any isSleep = false

/-- The line has not been used yet. -/
structure Early (as : List Act) : Prop where
  few : as.length ≤ 3
  once : reads as = 0
  line : (as.filter isPm).length = 0
  awake : as.any isSleep = false

theorem early_chore {as : List Act} (h : Early as) {xs : List Act} (h1 : xs.length ≤ 6) (h2 : reads xs ≤ 1)
    (h3 : (xs.filter isPm).length ≤ 1) (h4 : xs.any isSleep = false) : Chore (as ++ xs) where
  few := by rw [List.length_append]; have := h.few; omega
  once := by
    have : reads (as ++ xs) = reads as + reads xs := by simp [reads]
    have := h.once; omega
  line := by rw [List.filter_append, List.length_append]; have := h.line; omega
  awake := by rw [List.any_append, h.awake, h4]; rfl

theorem cache_query {id : CacheId} {Q : GB → Packet × Option Err → Prop} {as : List Act} (p : Packet)
    (he : Early as)
    (hQ : ∀ xs q e, xs.length ≤ 5 → reads xs ≤ 1 → (xs.filter isPm).length ≤ 1 →
      (xs.any isSleep = false) → (e = none → p.expect = true → q.command = p.command + 1) →
      Q (some (as ++ xs)) (q, e)) :
    (queryPacketP p).Ok (RB (.cache id) true Chore) Q (some as) := by
  have step : ∀ (xs : List Act) (x : Act), (xs ++ [x]).length ≤ 6 → reads (xs ++ [x]) ≤ 1 →
      ((xs ++ [x]).filter isPm).length ≤ 1 → ((xs ++ [x]).any isSleep = false) →
      Chore ((as ++ xs) ++ [x]) := by
    intro xs x h1 h2 h3 h4
    rw [List.append_assoc]; exact early_chore he h1 h2 h3 h4
  have fin : ∀ (xs : List Act) (q : Packet) (e : Option Err), xs.length ≤ 4 → reads xs ≤ 1 →
      (xs.filter isPm).length ≤ 1 → (xs.any isSleep = false) → (e = none → p.expect = true →
      q.command = p.command + 1) →
      (Prog.unlock .pm (.ret (q, e))).Ok (RB (.cache id) true Chore) Q (some (as ++ xs)) := by
    intro xs q e h1 h2 h3 h4 h _
    refine ⟨⟨rfl, fun _ => step xs _ (by simp; omega) (by simpa [reads] using h2)
      (by simpa [isPm] using h3) (by simpa [isSleep] using h4)⟩, ?_⟩
    show Q (some (as ++ xs ++ [_])) _
    rw [List.append_assoc]
    exact hQ _ _ _ (by simp; omega) (by simpa [reads] using h2)
      (by simpa [isPm] using h3) (by simpa [isSleep] using h4) h
  have stepOk : ∀ {β : Type} {Q' : GB → β → Prop} {k : Prog β} (xs : List Act) (x : Act),
      takes (.cache id) true x = false → gives (.cache id) true x = false →
      (xs ++ [x]).length ≤ 6 → reads (xs ++ [x]) ≤ 1 →
      ((xs ++ [x]).filter isPm).length ≤ 1 → ((xs ++ [x]).any isSleep = false) →
      k.Ok (RB (.cache id) true Chore) Q' (some (as ++ (xs ++ [x]))) →
      (RB (.cache id) true Chore).must (some (as ++ xs)) x ∧
        k.Ok (RB (.cache id) true Chore) Q' ((RB (.cache id) true Chore).post (some (as ++ xs)) x) := by
    intro β Q' k xs x ht hg h1 h2 h3 h4 hk
    refine ⟨⟨ht, fun _ => step xs x h1 h2 h3 h4⟩, ?_⟩
    rw [show (RB (.cache id) true Chore).post (some (as ++ xs)) x = some (as ++ (xs ++ [x])) by
      simp [RB, postB, ht, hg]]
    exact hk
  unfold queryPacketP
  refine fun _ => ?_
  rw [show as = as ++ [] by simp]
  refine stepOk [] (.lock .pm) rfl rfl (by simp) (by simp [reads]) (Nat.le_refl 1) (by simp [isSleep]) ?_
  split
  · exact fin _ _ _ (by simp) (by simp [reads]) (Nat.le_refl 1) (by simp [isSleep]) (by simp)
  · rintro ⟨n, err⟩ -
    refine stepOk [.lock .pm] (.wrote _ (n, err)) rfl rfl (by simp) (by simp [reads]) (Nat.le_refl 1)
      (by simp [isSleep]) ?_
    cases err with
    | some e => exact fin _ _ _ (by simp) (by simp [reads]) (Nat.le_refl 1) (by simp [isSleep]) (by simp)
    | none =>
      rintro ⟨q, err⟩ -
      refine stepOk [.lock .pm, .wrote _ (n, none)] (.got _ (q, err)) rfl rfl (by simp) (by simp [reads])
        (Nat.le_refl 1) (by simp [isSleep]) ?_
      cases err with
      | some e => exact fin _ _ _ (by simp) (by simp [reads]) (Nat.le_refl 1) (by simp [isSleep]) (by simp)
      | none =>
        by_cases hc : p.expect = true ∧ q.command ≠ p.command + 1
        · simp only [if_pos hc]
          exact fin _ _ _ (by simp) (by simp [reads]) (Nat.le_refl 1) (by simp [isSleep]) (by simp)
        · have hc' : p.expect = true → q.command = p.command + 1 := by
            intro h
            by_cases h2 : q.command = p.command + 1
            · exact h2
            · exact absurd ⟨h, h2⟩ hc
          simp only [if_neg hc]
          rintro ⟨m, err⟩ -
          refine stepOk [.lock .pm, .wrote _ (n, none), .got _ (q, none)] (.wrote _ (m, err)) rfl rfl
            (by simp) (by simp [reads]) (Nat.le_refl 1) (by simp [isSleep]) ?_
          cases err with
          | some e => exact fin _ _ _ (by simp) (by simp [reads]) (Nat.le_refl 1) (by simp [isSleep]) (by simp)
          | none => exact fin _ _ _ (by simp) (by simp [reads]) (Nat.le_refl 1) (by simp [isSleep]) fun _ => hc'

theorem cache_update {Q : GB → Unit → Prop} (id : CacheId) (force : Bool) (hQ : Q none ()) :
    (update id force).Ok (RB (.cache id) true Chore) Q none := by
  have hu : ∀ g, (Prog.unlock (.cache id) (.ret ())).Ok (RB (.cache id) true Chore) Q g := by
    intro g _
    have hg : gives (.cache id) true (.unlock (.cache id)) = true := gives_iff.2 rfl
    refine ⟨?_, ?_⟩
    · cases g with
      | none => trivial
      | some as => exact ⟨rfl, fun h => by rw [hg] at h; cases h⟩
    · rw [show (RB (.cache id) true Chore).post g (.unlock (.cache id)) = none by
        simp [RB, postB, hg, takes]]
      exact hQ
  have refresh : ∀ now as, Early as → as.length ≤ 2 → (Prog.note id now <| id.fetch.bind fun (v, err) =>
      match err with
      | none => .store id { val := v, last := now } <| .unlock (.cache id) <| .ret ()
      | some _ => .unlock (.cache id) <| .ret ()).Ok (RB (.cache id) true Chore) Q (some as) := by
    intro now as he hl _
    have he' : Early (as ++ [.note id now]) :=
      ⟨by simp; omega, by simpa [reads] using he.once, by simpa [isPm] using he.line, by simpa [isSleep] using he.awake⟩
    refine ⟨⟨rfl, fun _ => early_chore he (by simp) (by simp [reads]) (by simp [isPm]) (by simp [isSleep])⟩,
      ok_bind ?_⟩
    show Prog.Ok (RB (.cache id) true Chore) _ _ (some (as ++ [.note id now]))
    refine ok_fetch id (cache_query _ he' fun xs _ _ h1 h2 h3 h4 h => ⟨fun he => h he rfl, fun v e _ _ => ?_⟩)
    cases e with
    | none =>
      refine fun _ => ⟨⟨rfl, fun _ => ?_⟩, hu _⟩
      rw [List.append_assoc (as ++ [Act.note id now]) xs]
      exact early_chore he' (by simp; omega) (by simpa [reads] using h2)
        (by simpa [isPm] using h3) (by simpa [isSleep] using h4)
    | some _ => exact hu _
  unfold update
  have e1 : ∀ now, Early [.now now] := fun now => ⟨by simp, rfl, rfl, by simp [isSleep]⟩
  refine fun _ => ⟨trivial, ?_⟩
  rw [show (RB (.cache id) true Chore).post none (.lock (.cache id)) = some [] by
    simp [RB, postB, takes]]
  refine fun now _ => ⟨⟨rfl, fun _ => early_chore (as := []) ⟨by simp, rfl, rfl, by simp⟩ (by simp)
    (by simp [reads]) (by simp [isPm]) (by simp [isSleep])⟩, ?_⟩
  show Prog.Ok (RB (.cache id) true Chore) Q _ (some [.now now])
  cases force with
  | true => exact refresh now _ (e1 now) (by simp)
  | false =>
    refine fun c _ => ⟨⟨rfl, fun _ => early_chore (e1 now) (xs := [.load id c]) (by simp)
      (by simp [reads]) (by simp [isPm]) (by simp [isSleep])⟩, ?_⟩
    show Prog.Ok (RB (.cache id) true Chore) Q _ (some [.now now, .load id c])
    by_cases hs : (!isStale c.last now) = true
    · simp only [hs, if_true]; exact hu _
    · simp only [hs]
      exact refresh now _ ⟨by simp, rfl, rfl, by simp [isSleep]⟩ (by simp)

theorem neutral_cache (id : CacheId) : Neutral (RB (.cache id) true Chore) none where
  plain a ha := by
    by_cases h : takes (.cache id) true a = true
    · rw [takes_iff.1 h] at ha; exact absurd ha not_false
    · exact ⟨trivial, post_none (by simpa using h)⟩
  query p Q hQ := okB_off (off_query rfl p hQ)
  upd i force Q hQ := by
    by_cases e : i = id
    · subst e; exact cache_update i force hQ
    · exact okB_off (off_update rfl i (by simp [takes, e]) force hQ)
  proto i conv Q hQ := by
    by_cases e : i = id
    · subst e
      refine fun _ => ⟨trivial, ?_⟩
      rw [show (RB (.cache i) true Chore).post none (.lock (.cache i)) = some [] by
        simp [RB, postB, takes]]
      refine fun c _ => ⟨⟨rfl, fun _ => ⟨by simp, by simp [reads], by simp [isPm], rfl⟩⟩, ?_⟩
      show Prog.Ok (RB (.cache i) true Chore) Q _ (some [.load i c])
      have hg : gives (.cache i) true (.unlock (.cache i)) = true := gives_iff.2 rfl
      refine fun _ => ⟨⟨rfl, fun h => by rw [hg] at h; cases h⟩, ?_⟩
      rw [show (RB (.cache i) true Chore).post (some [.load i c]) (.unlock (.cache i)) = none by
        simp [RB, postB, hg, takes]]
      exact hQ _
    · exact okB_off fun _ => ⟨by simp [Off, takes, e], fun c _ => ⟨rfl, fun _ => ⟨rfl, hQ _⟩⟩⟩
  peek i k Q hk := fun _ => ⟨trivial, fun c _ => ⟨trivial, fun _ => ⟨trivial, hk c⟩⟩⟩

theorem neutral_shared (id : CacheId) : Neutral (RB (.cache id) false Chore) none where
  plain a ha := by
    by_cases h : takes (.cache id) false a = true
    · rw [takes_iff.1 h] at ha; exact absurd ha not_false
    · exact ⟨trivial, post_none (by simpa using h)⟩
  query p Q hQ := okB_off (off_query rfl p hQ)
  upd i force Q hQ := okB_off (off_update rfl i rfl force hQ)
  proto i conv Q hQ := okB_off fun _ => ⟨rfl, fun c _ => ⟨rfl, fun _ => ⟨rfl, hQ _⟩⟩⟩
  peek i k Q hk := by
    by_cases e : i = id
    · subst e
      refine fun _ => ⟨trivial, ?_⟩
      rw [show (RB (.cache i) false Chore).post none (.rlock (.cache i)) = some [] by
        simp [RB, postB, takes]]
      refine fun c _ => ⟨⟨rfl, fun _ => ⟨by simp, by simp [reads], by simp [isPm], rfl⟩⟩, ?_⟩
      show Prog.Ok (RB (.cache i) false Chore) Q _ (some [.load i c])
      have hg : gives (.cache i) false (.runlock (.cache i)) = true := gives_iff.2 rfl
      refine fun _ => ⟨⟨rfl, fun h => by rw [hg] at h; cases h⟩, ?_⟩
      rw [show (RB (.cache i) false Chore).post (some [.load i c]) (.runlock (.cache i)) = none by
        simp [RB, postB, hg, takes]]
      exact hk c
    · refine fun _ => ⟨trivial, ?_⟩
      rw [post_none (by simp [takes, e])]
      refine fun c _ => ⟨trivial, ?_⟩
      rw [post_none rfl]
      refine fun _ => ⟨trivial, ?_⟩
      rw [post_none rfl]
      exact hk c

/-! ## What is done while a lock is held -/

variable {S : Setup σ} {w : World σ} {f : Nat → Sys σ}

/-- The ghost state. -/
def ghost (l : Lock) (b : Bool) (u : Tid) (s : Sys σ) : GB := (actsOf u s.sh.trace).foldl (postB l b) none

theorem ghost_some {l : Lock} {b : Bool} {u : Tid} {s : Sys σ} (hr : Reachable S (Sys.initial w) s)
    (hh : ⟨l, b, u⟩ ∈ s.sh.held) : ∃ as, ghost l b u s = some as := by
  obtain ⟨pre, post, h1, h2⟩ := held_trace hr _ hh
  simp only at h1 h2
  unfold ghost
  rw [h1, actsOf_append, List.foldl_append, show (u, taking l b) :: post = [(u, taking l b)] ++ post by rfl,
    actsOf_append, acts_one, if_pos rfl, List.foldl_append]
  have e : ∀ g, List.foldl (postB l b) g [taking l b] = some [] := by
    intro g
    rw [List.foldl_cons, List.foldl_nil, postB, if_pos (takes_iff.2 rfl)]
  rw [e]
  generalize actsOf u post = xs at h2
  have : ∀ (xs : List Act) (as : List Act), releasing l b ∉ xs →
      ∃ as', List.foldl (postB l b) (some as) xs = some as' := by
    intro xs
    induction xs with
    | nil => intro as _; exact ⟨as, rfl⟩
    | cons x xs ih =>
      intro as hn
      have hx : gives l b x = false := by
        by_cases h : gives l b x = true
        · exact absurd (gives_iff.1 h ▸ List.mem_cons_self) hn
        · simpa using h
      have hxs : releasing l b ∉ xs := fun h => hn (List.mem_cons_of_mem _ h)
      rw [List.foldl_cons]
      unfold postB
      split
      · exact ih _ hxs
      · rw [hx]; exact ih _ hxs
  exact this xs [] h2

/-- The sum of the costs of what is done while the lock is held, the next action included. -/
theorem hold_sum {l : Lock} {b : Bool} {P : List Act → Prop} (N : Neutral (RB l b P) none) (hf : Execution S w f)
    {u : Tid} {c d : Nat} (hcd : c ≤ d) (hh : ∀ k, c ≤ k → k ≤ d → ⟨l, b, u⟩ ∈ (f k).sh.held)
    (cost : Act → Nat) {A δ : Nat} (hA : ∀ z, P z → (z.map cost).sum ≤ A) (hrel : cost (releasing l b) ≤ δ)
    {as : List Act} {y : Act} (has : actsOf u (f d).sh.trace = actsOf u (f c).sh.trace ++ as)
    (hy : Poised (f d) u y) : ((as ++ [y]).map cost).sum ≤ A + δ := by
  obtain ⟨l0, hl0⟩ := ghost_some (run_reach hf c) (hh c (Nat.le_refl _) hcd)
  have key : ∀ k, c ≤ k → k ≤ d → ∃ as, actsOf u (f k).sh.trace = actsOf u (f c).sh.trace ++ as ∧
      ghost l b u (f k) = some (l0 ++ as) ∧ (as = [] ∨ P (l0 ++ as)) := by
    intro k hk
    induction hk with
    | refl => intro _; exact ⟨[], by simp, by simpa using hl0, .inl rfl⟩
    | @step k hk ih =>
      intro hkd
      obtain ⟨as, h1, h2, h3⟩ := ih (Nat.le_of_succ_le hkd)
      rcases step_acts (hf.next k) u with e | ⟨x, hx, e⟩
      · exact ⟨as, e.trans h1, by unfold ghost; rw [e]; exact h2, h3⟩
      · obtain ⟨g, hK, -⟩ := neutral_trace N (fun _ _ => trivial) (run_reach hf (k + 1))
        have hm : mustB l b P (ghost l b u (f k)) x := hK.kept u _ x [] e
        rw [h2] at hm
        have hg : gives l b x = false := by
          by_cases h : gives l b x = true
          · rw [gives_iff.1 h] at e
            exact absurd (hh (k + 1) (Nat.le_succ_of_le hk) hkd)
              (given_back (x := ⟨l, b, u⟩) (run_reach hf k) (hf.next k) e)
          · simpa using h
        refine ⟨as ++ [x], by rw [e, h1, List.append_assoc], ?_, .inr ?_⟩
        · have : ghost l b u (f (k + 1)) = postB l b (ghost l b u (f k)) x := by
            unfold ghost
            rw [e, List.foldl_append]; rfl
          rw [this, h2]
          simp [postB, hm.1, hg]
        · rw [← List.append_assoc]; exact hm.2 hg
  obtain ⟨as', h1, h2, h3⟩ := key d hcd (Nat.le_refl _)
  have e : as' = as := List.append_cancel_left (h1.symm.trans has)
  subst e
  obtain ⟨g, hK, hi⟩ := neutral_trace N (fun _ _ => trivial) (run_reach hf d)
  have hm : mustB l b P (some (l0 ++ as')) y := by
    have hg : g u = some (l0 ++ as') := (hK.state u).trans h2
    rw [← hg]
    cases u with
    | worker =>
      obtain ⟨p, hn⟩ := hy
      exact (ok_next hi.worker hn trivial).1
    | client i =>
      obtain ⟨c, p, hc, hn⟩ := hy
      exact (ok_next (hi.client i c hc).1 hn trivial).1
  by_cases hg : gives l b y = true
  · have hs : ((as').map cost).sum ≤ A := by
      rcases h3 with rfl | h3
      · simp
      · have := hA _ h3
        rw [List.map_append, List.sum_append] at this
        omega
    rw [gives_iff.1 hg, List.map_append, List.sum_append]
    simp only [List.map_cons, List.map_nil, List.sum_cons, List.sum_nil]
    omega
  · have := hA _ (hm.2 (by simpa using hg))
    simp only [List.map_append, List.sum_append] at this ⊢
    omega

/-- Who holds the line or the lock of a cache can go on or waits for the line. -/
theorem holder (hL : S.line.NoPanic) {s : Sys σ} (h : Reachable S (Sys.initial w) s) {l : Lock} {b : Bool}
    {t : Tid} (hl : l = .pm ∨ ∃ id, l = .cache id) (hm : ⟨l, b, t⟩ ∈ s.sh.held) :
    (∃ y, Poised s t y ∧ ∃ s', Moves S.line t s s') ∨ Poised s t (.lock .pm) ∧ l ≠ .pm := by
  obtain ⟨g, hi⟩ := inv1 h
  have hG : Glob1 g s.sh := hi.glob
  have hm' := (hG.held_iff t l b).2 hm
  rcases holder_head hL hi (t := t) (List.ne_nil_of_mem hm') with ⟨a, sh', h1, h2, -⟩ | ⟨l', h1, h2⟩
  · obtain ⟨s', h3, h4⟩ := canAct h1 h2
    exact .inl ⟨a, h1, s', h3, a, by rw [h4, acts_trace h2]⟩
  · have hlt := h1 _ hm'
    have hle := rank_le l'
    have e : l' = .pm := by
      rcases hl with rfl | ⟨id, rfl⟩ <;> cases l' <;> simp_all [Lock.rank]
    subst e
    refine .inr ⟨h2.resolve_right fun hp => ?_, ?_⟩
    · cases t with
      | worker =>
        obtain ⟨p, hn⟩ := hp
        exact (ok_next hi.worker hn trivial).1.2.2 rfl
      | client j =>
        obtain ⟨c, p, hc, hn⟩ := hp
        exact (ok_next (hi.client j c hc).1 hn trivial).1.2.2 rfl
    · rintro rfl; exact Nat.lt_irrefl _ hlt

/-! ## How long the locks are held -/

theorem atMost_kind (δ : Nat) : ∀ x y, sameKind x y → lasting δ x = lasting δ y := by
  intro x y h
  cases x <;> cases y <;> first | exact absurd h id | rfl | (cases h; rfl)

theorem talk_sum (δ : Nat) : ∀ z, Talk z → (z.map (lasting δ)).sum ≤ 1000000000 + 3 * δ := by
  rintro z ⟨h1, h2, h3⟩
  have : (z.map (lasting δ)).sum ≤ reads z * 1000000000 + z.length * δ := by
    clear h1 h2
    induction z with
    | nil => simp
    | cons x z ih =>
      have ih := ih fun a ha => h3 a (List.mem_cons_of_mem _ ha)
      rcases h3 x List.mem_cons_self with ⟨bs, r, rfl⟩ | ⟨e, r, rfl⟩
      · simp only [List.map_cons, List.sum_cons, List.length_cons, lasting, reads, List.filter_cons] at *
        simp only [Bool.false_eq_true, if_false]
        rw [Nat.add_mul]; omega
      · simp only [List.map_cons, List.sum_cons, List.length_cons, lasting, reads, List.filter_cons] at *
        simp only [if_true, List.length_cons]
        rw [Nat.add_mul, Nat.add_mul]; omega
  have a : z.length * δ ≤ 3 * δ := Nat.mul_le_mul_right _ h1
  omega

theorem no_shared_line {s : Sys σ} (h : Reachable S (Sys.initial w) s) {u : Tid} :
    ⟨.pm, false, u⟩ ∉ s.sh.held := by
  intro hm
  obtain ⟨pre, post, h1, -⟩ := held_trace h _ hm
  obtain ⟨s₁, sh', hr, -, hp, -⟩ := moment h h1 rfl
  obtain ⟨g, hi⟩ := inv1 hr
  cases u with
  | worker =>
    obtain ⟨p, hn⟩ := hp
    exact (ok_next hi.worker hn trivial).1.2.2 rfl
  | client j =>
    obtain ⟨c, p, hc, hn⟩ := hp
    exact (ok_next (hi.client j c hc).1 hn trivial).1.2.2 rfl

/-- The line is held for one second at the most. -/
theorem hold_line (hL : S.line.NoPanic) (hf : Execution S w f) {δ : Nat} (hp : Prompt S.line f δ) {u : Tid}
    {b : Bool} {c d : Nat} (hcd : c ≤ d) (hh : ∀ k, c ≤ k → k ≤ d → ⟨.pm, b, u⟩ ∈ (f k).sh.held) :
    (f (d + 1)).sh.world.clock ≤ (f c).sh.world.clock + (1000000000 + 4 * δ : Nat) := by
  cases b with
  | false => exact absurd (hh c (Nat.le_refl _) hcd) (no_shared_line (run_reach hf c))
  | true =>
    have go : ∀ k, c ≤ k → k ≤ d → ∃ y, Poised (f k) u y ∧ ∃ s', Moves S.line u (f k) s' := by
      intro k h1 h2
      exact (holder hL (run_reach hf k) (.inl rfl) (hh k h1 h2)).resolve_right fun h => h.2 rfl
    obtain ⟨as, y, h1, h2, h3⟩ := chain hf hcd (lasting δ) (atMost_kind δ)
      (fun k k1 k2 => (go k k1 k2).imp fun _ h => h.1)
      (fun k n y k1 k2 k3 hi hy => hp u k n k2
        (fun j j1 j2 => (go j (Nat.le_trans k1 j1) (Nat.le_trans j2 k3)).choose_spec.2) hi y hy)
    have := hold_sum neutral_line hf hcd hh (lasting δ) (talk_sum δ) (Nat.le_refl δ) h1 h2
    omega

/-- All goroutines. -/
def tids (s : Sys σ) : List Tid := .worker :: (List.range s.clients.length).map .client

theorem tids_nodup (s : Sys σ) : (tids s).Nodup := by
  unfold tids
  rw [List.nodup_cons]
  refine ⟨by simp, ?_⟩
  rw [List.Nodup, List.pairwise_map]
  exact List.Pairwise.imp (fun h e => h (by cases e; rfl)) List.nodup_range

theorem tids_mem {s : Sys σ} (hr : Reachable S (Sys.initial w) s) {t : Tid}
    (h : (∃ a, Poised s t a) ∨ ∃ l b, ⟨l, b, t⟩ ∈ s.sh.held) : t ∈ tids s := by
  cases t with
  | worker => exact List.mem_cons_self
  | client i =>
    refine List.mem_cons_of_mem _ (List.mem_map.2 ⟨i, List.mem_range.2 ?_, rfl⟩)
    rcases h with ⟨a, c, p, hc, -⟩ | ⟨l, b, hm⟩
    · exact (List.getElem?_eq_some_iff.1 hc).1
    · obtain ⟨g, hi⟩ := inv1 hr
      have hG : Glob1 g s.sh := hi.glob
      have := (hG.held_iff _ _ _).2 hm
      rcases Nat.lt_or_ge i s.clients.length with h | h
      · exact h
      · rw [hi.unborn i h] at this; cases this

theorem lock_free {s : Sys σ} (hr : Reachable S (Sys.initial w) s) {t : Tid} {l : Lock} {b : Bool}
    (hp : Poised s t (.lock l)) : ⟨l, b, t⟩ ∉ s.sh.held := by
  intro hm
  obtain ⟨g, hi⟩ := inv1 hr
  have hG : Glob1 g s.sh := hi.glob
  have hm' := (hG.held_iff _ _ _).2 hm
  have hfree : (g t).Free l := by
    cases t with
    | client i =>
      obtain ⟨c, p, hc, hn⟩ := hp
      exact (ok_next (hi.client i c hc).1 hn trivial).1.2
    | worker =>
      obtain ⟨p, hn⟩ := hp
      exact (ok_next hi.worker hn trivial).1.2
  exact absurd (hfree _ hm') (Nat.lt_irrefl _)

theorem sum_const (ws : List Tid) (k : Nat) : (ws.map fun _ => k).sum = ws.length * k := by
  induction ws with
  | nil => simp
  | cons a l ih => simp only [List.map_cons, List.sum_cons, ih, List.length_cons, Nat.add_mul]; omega

/-- Waiting for the line takes a second for each of those who use it or wait for it already. -/
theorem wait_line_of (hL : S.line.NoPanic) (hf : Execution S w f) {δ : Nat}
    (hp : Prompt S.line f δ) (hq : Queued f) {t : Tid} {m n N : Nat} (hmn : m ≤ n)
    (ht : Poised (f m) t (.lock .pm)) (hid : Still f t m n)
    (hN : ∀ ws : List Tid, ws.Nodup → (∀ u ∈ ws, u ≠ t ∧ AtLine (f m) u) → ws.length ≤ N) :
    (f (n + 1)).sh.world.clock ≤ (f m).sh.world.clock + (N * (1000000000 + 5 * δ) + δ : Nat) := by
  classical
  let ws := (tids (f m)).filter fun u => decide (u ≠ t ∧ AtLine (f m) u)
  have hnd : ws.Nodup := (tids_nodup _).filter _
  have hat : ∀ u ∈ ws, u ≠ t ∧ AtLine (f m) u := by
    intro u hu
    simpa using (List.mem_filter.1 hu).2
  have hlen : ws.length ≤ N := hN ws hnd hat
  have := wait_lock hf hp hq ht hid (fun _ => 1000000000 + 4 * δ)
    (fun u b c d _ h2 _ h => hold_line hL hf hp h2 h) ws m (Nat.le_refl _) hmn
    (by
      rintro u hu ⟨b, h⟩
      have hal : AtLine (f m) u := by
        cases b with
        | true => exact h.symm.imp (fun h => h.1) id
        | false =>
          rcases h with h | ⟨h, -⟩
          · exact absurd h (no_shared_line (run_reach hf m))
          · exfalso
            obtain ⟨g, hi⟩ := inv1 (run_reach hf m)
            cases u with
            | worker =>
              obtain ⟨p, hn⟩ := h
              exact (ok_next hi.worker hn trivial).1.2.2 rfl
            | client j =>
              obtain ⟨c, p, hc, hn⟩ := h
              exact (ok_next (hi.client j c hc).1 hn trivial).1.2.2 rfl
      refine List.mem_filter.2 ⟨tids_mem (run_reach hf m) ?_, by simpa using ⟨hu, hal⟩⟩
      exact hal.imp (fun h => ⟨_, h⟩) (fun h => ⟨_, _, h⟩))
    (fun k b h1 h2 => lock_free (run_reach hf k) (poised_idle hf h1 (idle_part hf hid h1 h2).1 ht))
  rw [sum_const] at this
  have h2 : ws.length * (1000000000 + 4 * δ + δ) ≤ N * (1000000000 + 5 * δ) := by
    rw [show 1000000000 + 4 * δ + δ = 1000000000 + 5 * δ by omega]
    exact Nat.mul_le_mul_right _ hlen
  omega

/-- Waiting for the line takes two seconds at the most. -/
theorem wait_line (hL : S.line.NoPanic) (hS : ∀ c, S.calls c → OnServer c) (hf : Execution S w f) {δ : Nat}
    (hp : Prompt S.line f δ) (hq : Queued f) {t : Tid} {m n : Nat} (hmn : m ≤ n)
    (ht : Poised (f m) t (.lock .pm)) (hid : Still f t m n) :
    (f (n + 1)).sh.world.clock ≤ (f m).sh.world.clock + (2000000000 + 11 * δ : Nat) := by
  have := wait_line_of (N := 2) hL hf hp hq hmn ht hid fun ws hnd hat => by
    have := C105_three hS (run_reach hf m) (ts := t :: ws)
      (List.nodup_cons.2 ⟨fun h => (hat t h).1 rfl, hnd⟩) (by
        intro u hu
        rcases List.mem_cons.1 hu with rfl | hu
        · exact .inl ht
        · exact (hat u hu).2)
    simpa using this
  omega

/-- What an action costs, waiting for the line (`W`) included. -/
def costL (W δ : Nat) (a : Act) : Nat := if isPm a then W else lasting δ a

theorem costL_kind (W δ : Nat) : ∀ x y, sameKind x y → costL W δ x = costL W δ y := by
  intro x y h
  cases x <;> cases y <;> first | exact absurd h id | rfl | (cases h; rfl)

theorem chore_sum (W δ : Nat) : ∀ z, Chore z → (z.map (costL W δ)).sum ≤ 1000000000 + W + 9 * δ := by
  intro z h
  have : (z.map (costL W δ)).sum ≤
      reads z * 1000000000 + (z.filter isPm).length * W + z.length * δ := by
    have h4 := h.awake
    clear h
    induction z with
    | nil => simp
    | cons x z ih =>
      rw [List.any_cons, Bool.or_eq_false_iff] at h4
      have ih := ih h4.2
      have hr : reads (x :: z) = reads [x] + reads z := by simp [reads, List.filter_cons]; split <;> simp <;> omega
      have hpm : ((x :: z).filter isPm).length = ([x].filter isPm).length + (z.filter isPm).length := by
        rw [← List.length_append, ← List.filter_append]; rfl
      have hx : costL W δ x ≤ reads [x] * 1000000000 + ([x].filter isPm).length * W + δ := by
        unfold costL
        split
        · rename_i h; simp [h]; omega
        · cases x <;> first
            | exact nomatch (show true = false from h4.1)
            | exact Nat.le_add_left δ _
            | (show 1000000000 + δ ≤ 1 * 1000000000 + 0 * _ + δ; omega)
      rw [List.map_cons, List.sum_cons, hr, hpm, List.length_cons, Nat.add_mul, Nat.add_mul, Nat.add_mul]
      omega
  have a : z.length * δ ≤ 9 * δ := Nat.mul_le_mul_right _ h.few
  have b : (z.filter isPm).length * W ≤ 1 * W := Nat.mul_le_mul_right _ h.line
  have := h.once
  omega

/-- The lock of a cache is held for a second, and as long as one waits for the line. -/
theorem hold_cache_of (hL : S.line.NoPanic) (hf : Execution S w f) {δ : Nat}
    (hp : Prompt S.line f δ) {u : Tid} {id : CacheId} {W : Nat}
    {b : Bool} {c d : Nat} (hcd : c ≤ d) (hh : ∀ k, c ≤ k → k ≤ d → ⟨.cache id, b, u⟩ ∈ (f k).sh.held)
    (hW : ∀ k n, c ≤ k → k ≤ n → n ≤ d → Poised (f k) u (.lock .pm) → Still f u k n →
      (f (n + 1)).sh.world.clock ≤ (f k).sh.world.clock + (W : Nat)) :
    (f (d + 1)).sh.world.clock ≤ (f c).sh.world.clock + (1000000000 + W + 10 * δ : Nat) := by
  have go : ∀ k, c ≤ k → k ≤ d → (∃ y, Poised (f k) u y ∧ ∃ s', Moves S.line u (f k) s') ∨
      Poised (f k) u (.lock .pm) := by
    intro k h1 h2
    exact (holder hL (run_reach hf k) (.inr ⟨id, rfl⟩) (hh k h1 h2)).imp_right fun h => h.1
  obtain ⟨as, y, h1, h2, h3⟩ := chain hf hcd (costL W δ) (costL_kind W δ)
    (fun k k1 k2 => (go k k1 k2).elim (fun ⟨y, h, _⟩ => ⟨y, h⟩) fun h => ⟨_, h⟩)
    (fun k n y k1 k2 k3 hi hy => by
      by_cases hpm : isPm y = true
      · have e : y = .lock .pm := by
          unfold isPm at hpm
          split at hpm
          · rfl
          · cases hpm
        subst e
        exact hW k n k1 k2 k3 hy hi
      · unfold costL
        rw [if_neg hpm]
        refine hp u k n k2 (fun j j1 j2 => ?_) hi y hy
        rcases go j (Nat.le_trans k1 j1) (Nat.le_trans j2 k3) with ⟨_, -, h⟩ | h
        · exact h
        · have := kind_lock (poised_kind h (poised_idle hf j1 (idle_part hf hi j1 j2).1 hy))
          exact absurd (by rw [this]; rfl) hpm)
  have := hold_sum (P := Chore) (by cases b; exact neutral_shared id; exact neutral_cache id) hf hcd hh
    (costL W δ) (chore_sum W δ) (δ := δ) (by cases b <;> exact Nat.le_refl _) h1 h2
  omega

/-- The lock of a cache is held for three seconds at the most. -/
theorem hold_cache (hL : S.line.NoPanic) (hS : ∀ c, S.calls c → OnServer c) (hf : Execution S w f) {δ : Nat}
    (hp : Prompt S.line f δ) (hq : Queued f) {u : Tid} {id : CacheId}
    {b : Bool} {c d : Nat} (hcd : c ≤ d) (hh : ∀ k, c ≤ k → k ≤ d → ⟨.cache id, b, u⟩ ∈ (f k).sh.held) :
    (f (d + 1)).sh.world.clock ≤ (f c).sh.world.clock + (3000000000 + 21 * δ : Nat) := by
  have := hold_cache_of hL hf hp hcd hh (W := 2000000000 + 11 * δ)
    fun k n _ k2 _ hy hi => wait_line hL hS hf hp hq k2 hy hi
  omega

end Comfo.Pace
