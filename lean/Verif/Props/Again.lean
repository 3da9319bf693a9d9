import Verif.Spec.Again
import Verif.Lemmas.Moment
import Verif.Props.Echo
/-!
# C104: a set request that is repeated does nothing

`SetFanSpeed`, `SetFanProfile` and `SetComfortTemp` look at the cache without its lock, while somebody
may be refreshing it; what they see is nevertheless not older than the last refresh that had ended.
-/
namespace Comfo.Props
open Spec

/-- One's own reply counts, stored or not yet. -/
theorem own_reply {id : CacheId} {t : Tid} {rest : List (Tid × Act)} {as bs qa : List Act} {q : Packet}
    {v : CVal id} (h : actsOf t rest = as ++ qa ++ bs) (hn : ∃ as' τ, as = as' ++ [.note id τ])
    (hq : QueryActs (requestCode id) [] true qa (q, none)) (hd : decode id q.data = some v)
    (c : Tid → Cur) : successes id c rest ≠ none := by
  obtain ⟨as, τ, rfl⟩ := hn
  obtain ⟨evs, ht, rfl⟩ := hq
  generalize hres : (q, none) = res at ht
  cases ht with
  | complete n q' hc =>
    cases hres
    have hc := hc rfl
    have e1 : actsOf t rest = (as ++ [.note id τ, .lock .pm,
        .wrote (frame (requestCode id) []) (n, none), .got true (q, none)]) ++
        .wrote ack (2, none) :: ([.unlock .pm] ++ bs) := by
      rw [h]; simp [toAct]
    obtain ⟨r1, r2, rfl, h1, -⟩ := actsOf_split e1
    unfold successes
    rw [List.foldl_append, List.foldl_cons]
    refine fst_stays _ _ ?_
    have hcur := cur_own id t r1 (none, c)
    rw [h1, List.filterMap_append, List.foldl_append] at hcur
    simp only [List.filterMap_cons, evOf, List.filterMap_nil, List.foldl_cons, List.foldl_nil, scanEv,
      if_true, hc] at hcur
    rw [(scanAct_at _ (ev := .wrote ack (2, none)) rfl).1, hcur]
    simp [scanEv, hd]
  | _ => cases hres

/-- What is before one of two events, if the first of them is before the second or the same. -/
theorem before_last {α : Type} {P : α → Prop} {A B p q : List α} {x y : α}
    (h : A ++ x :: B = p ++ y :: q) (hx : P x) (hq : ∀ z ∈ q, ¬ P z) : ∃ m, p = A ++ m := by
  rcases List.append_eq_append_iff.1 h with ⟨m, h1, -⟩ | ⟨m, h1, h2⟩
  · exact ⟨m, h1⟩
  · cases m with
    | nil => exact ⟨[], by simpa using h1.symm⟩
    | cons z m =>
      simp only [List.cons_append, List.cons.injEq] at h2
      exact absurd hx (hq x (by rw [h2.2]; simp))

/-- A command was confirmed, and the cache was refreshed afterwards: whoever comes later and looks at the
cache, with or without its lock, sees the setting. -/
theorem load_back {cmd : UInt8} {id : CacheId} {shows : List UInt8 → CVal id → Prop} {S : Setup σ}
    (hcmd : cmd ≠ requestCode id) (U : ReportUnit cmd id shows S.line S.env) {w : World σ}
    {s₁ s₂ : Sys σ} (h₁ : Reachable S (Sys.initial w) s₁) (h₂ : Reachable S s₁ s₂) {t : Tid}
    {d : List UInt8} (hs : SentRead id (frame cmd d) (actsOf t s₁.sh.trace)) {j : Nat}
    (hj : s₁.clients.length ≤ j) {as bs : List Act} {c : Entry (CVal id)}
    (ha : actsOf (.client j) s₂.sh.trace = as ++ .load id c :: bs) (has : ∀ bs r, .wrote bs r ∉ as) :
    ∃ pre rest, Confirmed s₂.sh.trace t (frame cmd d) pre rest ∧ (NoOther cmd j rest → shows d c.val) := by
  obtain ⟨g₁, hi₁⟩ := inv3 h₁
  obtain ⟨ext, hext⟩ := trace_grows h₂
  have hfresh := hi₁.hist.fresh j hj
  have ha' := ha
  rw [hext, actsOf_append, hfresh, List.nil_append] at ha'
  obtain ⟨mid, post, h3, h4, h5⟩ := actsOf_split ha'
  have h6 : s₂.sh.trace = (s₁.sh.trace ++ mid) ++ (.client j, .load id c) :: post := by
    rw [hext, h3]; simp
  obtain ⟨cs, r', e, q, b1, τ, ra, b2, hacts, ⟨qa, q', e', hqa, hra⟩, v, hv⟩ := hs
  have hno := query_no_store hqa id v
  match ho : outcome id q' e' with
  | none =>
    rw [hra] at hv
    simp [ho] at hv
    exact absurd hv hno
  | some u =>
    have he : e' = none := by cases e' <;> simp [outcome] at ho ⊢
    subst he
    have hd : decode id q'.data = some u := ho
    have hsp : actsOf t s₁.sh.trace = (cs ++ .wrote (frame cmd d) r' :: .got e (q, none) ::
        (b1 ++ [.note id τ] ++ qa)) ++ .store id ⟨u, τ⟩ :: ([.unlock (.cache id)] ++ b2) := by
      rw [hacts, hra, ho]; simp
    obtain ⟨A, B, hA, hA1, -⟩ := actsOf_split hsp
    obtain ⟨pre, A', rfl, hp1, hp2⟩ := actsOf_split hA1
    obtain ⟨m1, m2, rfl, h7, h8⟩ := actsOf_split (as := []) hp2
    have hmid : ∀ a, (t, a) ∉ m1 := by
      intro a hm
      have : a ∈ actsOf t m1 := by
        simp only [actsOf, List.mem_filterMap]
        exact ⟨(t, a), hm, by simp⟩
      rw [h7] at this; cases this
    have conf : ∀ more, Confirmed ((pre ++ (t, .wrote (frame cmd d) r') :: (m1 ++ (t, .got e (q, none)) :: m2)) ++
        more) t (frame cmd d) pre (m1 ++ (t, .got e (q, none)) :: (m2 ++ more)) := by
      intro more
      exact ⟨r', m1, e, q, m2 ++ more, by simp, rfl, hmid⟩
    refine ⟨pre, m1 ++ (t, .got e (q, none)) :: (m2 ++ ((t, .store id ⟨u, τ⟩) :: B ++ mid ++
      (.client j, .load id c) :: post)), ?_, fun hn => ?_⟩
    · have := conf ((t, .store id ⟨u, τ⟩) :: B ++ mid ++ (.client j, .load id c) :: post)
      rw [h6, hA]
      simpa using this
    · have hr := reach_trans h₁ h₂
      rcases load_last hr h6 with ⟨-, hns⟩ | ⟨p, v', q'', h9, h10⟩
      · exact absurd (show (t, Act.store id ⟨u, τ⟩) ∈ s₁.sh.trace ++ mid by rw [hA]; simp) (hns _ _)
      · rw [hA, List.append_assoc, List.cons_append] at h9
        obtain ⟨more, rfl⟩ := before_last (P := fun x : Tid × Act => ∃ t e, x = (t, .store id e)) h9
          ⟨_, _, rfl⟩ (by rintro ⟨t', a'⟩ hz ⟨t, e, heq⟩; rw [heq] at hz; exact h10 _ _ hz)
        have htr : s₂.sh.trace = (pre ++ (t, .wrote (frame cmd d) r') ::
            (m1 ++ (t, .got e (q, none)) :: m2) ++ more) ++ (v', .store id c) :: (q'' ++
              (.client j, .load id c) :: post) := by
          rw [h6, hA, List.append_assoc, List.append_assoc]
          rw [show (t, Act.store id ⟨u, τ⟩) :: B ++ (mid ++ (Tid.client j, Act.load id c) :: post) =
            (t, Act.store id ⟨u, τ⟩) :: (B ++ mid) ++ (Tid.client j, Act.load id c) :: post by simp,
            ← List.append_assoc, h9]
          simp
        have hcur := store_current hr htr
        have hc := conf more
        have hnj : ∀ bs r, (Tid.client j, Act.wrote bs r) ∉ s₁.sh.trace ++ mid := by
          intro bs r hm
          have : Act.wrote bs r ∈ actsOf (.client j) (s₁.sh.trace ++ mid) := by
            simp only [actsOf, List.mem_filterMap]
            exact ⟨_, hm, by simp⟩
          rw [actsOf_append, hfresh, h4] at this
          exact has _ _ (by simpa using this)
        have hsub : ∀ x ∈ m1 ++ (t, Act.got e (q, none)) :: (m2 ++ more), x ∈ s₁.sh.trace ++ mid ∧
            x ∈ m1 ++ (t, .got e (q, none)) :: (m2 ++ ((t, .store id ⟨u, τ⟩) :: B ++ mid ++
              (.client j, .load id c) :: post)) := by
          have hmore : ∀ x ∈ more, x ∈ (t, Act.store id ⟨u, τ⟩) :: B ++ mid := by
            intro x hx
            have := List.append_cancel_left (h9.trans (List.append_assoc _ _ _))
            rw [List.cons_append, this]
            simp [hx]
          intro x hx
          rw [hA]
          simp only [List.mem_append, List.mem_cons] at hx hmore ⊢
          rcases hx with h | h | h | h
          · simp [h]
          · simp [h]
          · simp [h]
          · have := hmore x h
            rcases this with (h | h) | h <;> simp [h]
        have hn' : NoCommand cmd (m1 ++ (t, .got e (q, none)) :: (m2 ++ more)) := by
          intro t' d' r'' hm
          obtain ⟨k1, k2⟩ := hsub _ hm
          by_cases hj' : t' = .client j
          · subst hj'
            exact hnj _ _ k1
          · exact hn t' d' r'' hj' k2
        obtain ⟨g, hi⟩ := inv6 hcmd U hr
        have hE : EchoInv U g s₂.sh := hi.glob.2
        have hne : successes id (others t (scanAll id pre).2)
            (m1 ++ (t, .got e (q, none)) :: (m2 ++ more)) ≠ none := by
          refine own_reply (t := t) (as := .got e (q, none) :: b1 ++ [.note id τ]) (qa := qa) (bs := actsOf t more) ?_
            ⟨_, _, rfl⟩ hqa hd _
          have h5 : actsOf t ((t, Act.got e (q, none)) :: m2) = .got e (q, none) :: actsOf t m2 := by
            simp [actsOf]
          rw [show m1 ++ (t, Act.got e (q, none)) :: (m2 ++ more) =
            m1 ++ ((t, .got e (q, none)) :: m2) ++ more by simp, actsOf_append, actsOf_append, h7, h5, h8]
          simp
        match hsu : successes id (others t (scanAll id pre).2)
            (m1 ++ (t, .got e (q, none)) :: (m2 ++ more)) with
        | none => exact absurd hsu hne
        | some (v₂, τ') =>
          have hshow := hE.echo _ _ t d pre _ htr hc hn' v₂ τ' hsu
          rw [scan_from (id := id) hcmd hc, hsu] at hcur
          have : v₂ = c.val := by
            have := Option.some.inj hcur
            exact congrArg Prod.fst this
          exact this ▸ hshow

theorem silent_of {s : Sys σ} {i : Nat} (h : ∀ bs r, .wrote bs r ∉ actsOf (.client i) s.sh.trace) :
    Silent s i := by
  intro bs r hm
  refine h bs r ?_
  simp only [actsOf, List.mem_filterMap]
  exact ⟨_, hm, by simp⟩

theorem stored_acts {s : Sys σ} {i : Nat} {id : CacheId} (h : Refreshed s i id) :
    ∃ e, Act.store id e ∈ actsOf (.client i) s.sh.trace := by
  obtain ⟨e, he⟩ := h
  refine ⟨e, ?_⟩
  simp only [actsOf, List.mem_filterMap]
  exact ⟨_, he, by simp⟩

theorem load_inj {id : CacheId} {c c' : Entry (CVal id)} (h : Act.load id c = Act.load id c') : c = c' := by
  injection h

/-- A speed that is set already. -/
theorem speed_same {n : UInt32} {rel : Bool} {acts rest : List Act} {t : Int} {c : Entry FanProfiles}
    {r : Rpc SpeedModified} (h : SpeedActs n rel acts r)
    (he : acts = .now t :: .lock .fan :: .load .profiles c :: rest)
    (hs : modifySpeed c.val.currentMode n rel = (c.val.currentMode, none)) :
    (∀ bs r, .wrote bs r ∉ acts) ∧ ∃ b, r = .ok b ∧ b.modified = false ∧
      b.originalSpeed = c.val.currentMode.toUInt32 ∧ b.targetSpeed = c.val.currentMode.toUInt32 := by
  have inj : ∀ {t' : Int} {c' : Entry FanProfiles} {rest' : List Act},
      .now t' :: .lock .fan :: .load .profiles c' :: rest' = acts → c' = c := by
    intro t' c' rest' h'
    rw [he] at h'
    simp only [List.cons.injEq] at h'
    exact load_inj (id := .profiles) h'.2.2.1
  cases h with
  | rejected t' c' b e h1 => obtain rfl := inj rfl; rw [hs] at h1; cases h1
  | same t' c' stop h1 =>
    obtain rfl := inj rfl
    exact ⟨by simp, _, rfl, rfl, rfl, rfl⟩
  | setFailed t' c' m sa e h1 h2 h3 => obtain rfl := inj rfl; rw [hs] at h1; cases h1; exact absurd rfl h2
  | noTarget t' c' m sa p e h1 h2 => obtain rfl := inj rfl; rw [hs] at h1; cases h1; exact absurd rfl h2
  | pollFailed t' c' m sa p x y pa e h1 h2 => obtain rfl := inj rfl; rw [hs] at h1; cases h1; exact absurd rfl h2
  | set t' c' m sa p x y pa u stop h1 h2 => obtain rfl := inj rfl; rw [hs] at h1; cases h1; exact absurd rfl h2

/-- A percentage that is set already. -/
theorem profile_same {m x : UInt32} {acts rest : List Act} {t : Int} {c : Entry FanProfiles}
    {r : Rpc SpeedModified} (h : ProfileRpcActs m x acts r)
    (he : acts = .now t :: .lock .fan :: .load .profiles c :: rest)
    (hs : inOf c.val (m.toUInt8 - 1) = x.toUInt8) :
    (∀ bs r, .wrote bs r ∉ acts) ∧ ∃ b, r = .ok b ∧ b.modified = false ∧ b.targetSpeed = x := by
  have inj : ∀ {t' : Int} {c' : Entry FanProfiles} {rest' : List Act},
      .now t' :: .lock .fan :: .load .profiles c' :: rest' = acts → c' = c := by
    intro t' c' rest' h'
    rw [he] at h'
    simp only [List.cons.injEq] at h'
    exact load_inj (id := .profiles) h'.2.2.1
  cases h with
  | badMode t' h1 => cases he
  | badSpeed t' h1 h2 => cases he
  | same t' c' stop h1 h2 h3 => exact ⟨by simp, _, rfl, rfl, rfl⟩
  | setFailed t' c' sa e h1 h2 h3 => obtain rfl := inj rfl; exact absurd hs h3
  | set t' c' sa u stop h1 h2 h3 => obtain rfl := inj rfl; exact absurd hs h3

/-- A temperature that is set already. -/
theorem comfort_same {cv : FloatConv} {x : UInt32} {acts rest : List Act} {t : Int} {c : Entry Temps}
    {r : Rpc ComfortModified} (h : ComfortActs cv x acts r) (he : acts = .now t :: .load .temps c :: rest)
    (hx : ¬ x > 255) (hs : cv.u8 c.val.comfort = x.toUInt8) :
    (∀ bs r, .wrote bs r ∉ acts) ∧ ∃ b, r = .ok b ∧ b.modified = false ∧ b.targetTemp = x ∧
      b.originalTemp = cv.u32 c.val.comfort := by
  have inj : ∀ {t' : Int} {c' : Entry Temps} {rest' : List Act},
      .now t' :: .load .temps c' :: rest' = acts → c' = c := by
    intro t' c' rest' h'
    rw [he] at h'
    simp only [List.cons.injEq] at h'
    exact load_inj (id := .temps) h'.2.1
  cases h with
  | rejected t' c' h1 => exact absurd h1 hx
  | same t' c' stop h1 h2 => obtain rfl := inj rfl; exact ⟨by simp, _, rfl, rfl, rfl, rfl⟩
  | setFailed t' c' sa e h1 h2 => obtain rfl := inj rfl; exact absurd hs h2
  | set t' c' sa u stop h1 h2 => obtain rfl := inj rfl; exact absurd hs h2

/-- **C104** `SetFanSpeed(n)` has reported a modification and refreshed the fan profiles. The same request
again, by anybody, later, sends nothing and reports none, unless somebody else has sent a speed command in
between; whatever else goes on, also a refresh of the same cache. -/
theorem C104_speed {S : Setup σ} (U : ReportUnit 0x99 .profiles ShowsSpeed S.line S.env)
    {w : World σ} {s₁ s₂ : Sys σ} (h₁ : Reachable S (Sys.initial w) s₁) {i : Nat} {n : UInt32} (hn : n ≠ 0)
    {a : SpeedModified} (ha : Answered s₁ i (.setSpeed n false) (.speed (.ok a)))
    (hmod : a.modified = true) (hst : Refreshed s₁ i .profiles)
    (h₂ : Reachable S s₁ s₂) {j : Nat} (hj : s₁.clients.length ≤ j) {r : Resp}
    (hr : Answered s₂ j (.setSpeed n false) r) :
    ∃ d pre rest, Confirmed s₂.sh.trace (.client i) (frame 0x99 d) pre rest ∧
      (NoOther 0x99 j rest → Silent s₂ j ∧ ∃ b, r = .speed (.ok b) ∧ b.modified = false ∧
        b.originalSpeed = a.targetSpeed ∧ b.targetSpeed = a.targetSpeed) := by
  obtain ⟨b, hb, hp⟩ := (post_resp (post_setFanSpeed n false)).answered (c := .setSpeed n false) h₁ ha
  cases hb
  obtain ⟨m, hm, hs⟩ := setSpeed_read hp hmod (stored_acts hst)
  obtain ⟨t₁, c₁, rest₁, -, hv⟩ := setSpeed_path (answered_path h₁ ha)
  obtain ⟨m', hm', -, hm₂, -, -⟩ := hv a rfl
  have e : m' = m := by
    have := congrArg UInt32.toNat (hm₂.symm.trans hm)
    simpa [← UInt8.toNat_inj] using this
  subst e
  -- the target does not depend on the speed that is set
  have htgt : ∀ base, modifySpeed base n false = (m', none) := by
    intro base
    unfold modifySpeed at hm' ⊢
    simp only [hn, ne_eq, not_false_eq_true, Bool.false_eq_true, and_false, if_false, if_true] at hm' ⊢
    split at hm'
    · cases hm'
    · rename_i h; rw [if_neg h]; exact hm'
  obtain ⟨b, hb, hp⟩ := (post_resp (post_setFanSpeed n false)).answered (c := .setSpeed n false)
    (reach_trans h₁ h₂) hr
  obtain ⟨t, c, rest, hacts, -⟩ := setSpeed_path (answered_path (reach_trans h₁ h₂) hr)
  have hacts' : actsOf (.client j) s₂.sh.trace = [.now t, .lock .fan] ++ .load .profiles c :: rest := hacts
  obtain ⟨pre, rst, hc, h7⟩ := load_back (by decide) U h₁ h₂ hs hj hacts' (by simp)
  refine ⟨_, pre, rst, hc, fun hno => ?_⟩
  have h8 := h7 hno
  simp only [ShowsSpeed, List.cons.injEq, and_true] at h8
  obtain ⟨h9, v, rfl, h10, h11, h12⟩ := speed_same hp hacts (by rw [htgt, h8])
  exact ⟨silent_of h9, v, hb, h10, by rw [h11, hm, h8], by rw [h12, hm, h8]⟩

/-- **C104** The same for `SetFanProfile(m, x)`. -/
theorem C104_profile {S : Setup σ} (U : ReportUnit 0xCF .profiles ShowsPct S.line S.env)
    {w : World σ} {s₁ s₂ : Sys σ} (h₁ : Reachable S (Sys.initial w) s₁) {i : Nat} {m x : UInt32}
    {a : SpeedModified} (ha : Answered s₁ i (.setProfile m x) (.speed (.ok a)))
    (hmod : a.modified = true) (hst : Refreshed s₁ i .profiles)
    (h₂ : Reachable S s₁ s₂) {j : Nat} (hj : s₁.clients.length ≤ j) {r : Resp}
    (hr : Answered s₂ j (.setProfile m x) r) :
    ∃ d pre rest, Confirmed s₂.sh.trace (.client i) (frame 0xCF d) pre rest ∧
      (NoOther 0xCF j rest → Silent s₂ j ∧ ∃ b, r = .speed (.ok b) ∧ b.modified = false ∧
        b.targetSpeed = a.targetSpeed) := by
  obtain ⟨b, hb, hp⟩ := (post_resp (post_setFanProfileRpc m x)).answered (c := .setProfile m x) h₁ ha
  cases hb
  obtain ⟨k1, k2, k3, k4, k5, h6, -⟩ := setProfile_sent hp
  obtain ⟨old, -, hs⟩ := h6 hmod
  obtain ⟨b, hb, hp⟩ := (post_resp (post_setFanProfileRpc m x)).answered (c := .setProfile m x)
    (reach_trans h₁ h₂) hr
  have hl : ∃ t c rest, actsOf (.client j) s₂.sh.trace = .now t :: .lock .fan :: .load .profiles c :: rest := by
    generalize actsOf (.client j) s₂.sh.trace = acts at hp
    have n1 : ¬ (m.toUInt8 < 1 ∨ m.toUInt8 > 4) := by
      simp only [UInt8.lt_iff_toNat_lt, gt_iff_lt]
      have e1 : (1 : UInt8).toNat = 1 := rfl
      have e2 : (4 : UInt8).toNat = 4 := rfl
      omega
    have n2 : ¬ (x.toUInt8 < 15 ∨ x.toUInt8 > 100) := by
      simp only [UInt8.lt_iff_toNat_lt, gt_iff_lt]
      have e1 : (15 : UInt8).toNat = 15 := rfl
      have e2 : (100 : UInt8).toNat = 100 := rfl
      omega
    cases hp with
    | badMode t h => exact absurd h n1
    | badSpeed t h1 h => exact absurd h n2
    | same t c => exact ⟨t, c, _, rfl⟩
    | setFailed t c => exact ⟨t, c, _, rfl⟩
    | set t c => exact ⟨t, c, _, rfl⟩
  obtain ⟨t, c, rest, hacts⟩ := hl
  have hacts' : actsOf (.client j) s₂.sh.trace = [.now t, .lock .fan] ++ .load .profiles c :: rest := hacts
  obtain ⟨pre, rst, hc, h7⟩ := load_back (by decide) U h₁ h₂ (hs (stored_acts hst)) hj hacts' (by simp)
  refine ⟨_, pre, rst, hc, fun hno => ?_⟩
  have h8 : percentages c.val = _ := h7 hno
  have h9 : inOf c.val (m.toUInt8 - 1) = x.toUInt8 := by
    have hm1 : (m.toUInt8 - 1).toNat = m.toUInt8.toNat - 1 := by
      rw [UInt8.toNat_sub_of_le]
      · rfl
      · rw [UInt8.le_iff_toNat_le]; exact k1
    rw [← hm1] at h8
    have : m.toUInt8 - 1 = 0 ∨ m.toUInt8 - 1 = 1 ∨ m.toUInt8 - 1 = 2 ∨ m.toUInt8 - 1 = 3 := by
      simp only [← UInt8.toNat_inj, hm1]
      change _ = 0 ∨ _ = 1 ∨ _ = 2 ∨ _ = 3
      omega
    generalize m.toUInt8 - 1 = k at h8 this
    rcases this with rfl | rfl | rfl | rfl <;>
      simp_all [inOf, percentages, replaceMode]
  obtain ⟨h10, v, rfl, h11, h12⟩ := profile_same hp hacts h9
  exact ⟨silent_of h10, v, hb, h11, by rw [h12, k5]⟩

/-- **C104** The same for `SetComfortTemp(x)`. -/
theorem C104_comfort {S : Setup σ} (U : ReportUnit 0xD3 .temps ShowsComfort S.line S.env)
    {w : World σ} {s₁ s₂ : Sys σ} (h₁ : Reachable S (Sys.initial w) s₁) {i : Nat} {x : UInt32}
    {a : ComfortModified} (ha : Answered s₁ i (.setComfort x) (.comfort (.ok a)))
    (hmod : a.modified = true) (hst : Refreshed s₁ i .temps)
    (h₂ : Reachable S s₁ s₂) {j : Nat} (hj : s₁.clients.length ≤ j) {r : Resp}
    (hr : Answered s₂ j (.setComfort x) r) :
    ∃ d pre rest, Confirmed s₂.sh.trace (.client i) (frame 0xD3 d) pre rest ∧
      (NoOther 0xD3 j rest → Silent s₂ j ∧ ∃ b, r = .comfort (.ok b) ∧ b.modified = false ∧
        b.targetTemp = x ∧ b.originalTemp = x) := by
  obtain ⟨b, hb, hp⟩ := (post_resp (post_setComfortTemp S.cv x)).answered (c := .setComfort x) h₁ ha
  cases hb
  obtain ⟨d, hd, hs⟩ := setComfort_read hp hmod (stored_acts hst)
  obtain ⟨_, _, _, _, hv⟩ := setComfort_path (answered_path h₁ ha)
  obtain ⟨hx, -, -, -⟩ := hv a rfl
  obtain ⟨b, hb, hp⟩ := (post_resp (post_setComfortTemp S.cv x)).answered (c := .setComfort x)
    (reach_trans h₁ h₂) hr
  obtain ⟨t, c, rest, hacts, -⟩ := setComfort_path (answered_path (reach_trans h₁ h₂) hr)
  have hacts' : actsOf (.client j) s₂.sh.trace = [.now t] ++ .load .temps c :: rest := hacts
  obtain ⟨pre, rst, hc, h7⟩ := load_back (by decide) U h₁ h₂ hs hj hacts' (by simp)
  refine ⟨_, pre, rst, hc, fun hno => ?_⟩
  obtain ⟨d', h8, h9⟩ := h7 hno
  cases h8
  have hv : c.val.comfort = x.toNat := by rw [h9, hd]; omega
  have e8 : S.cv.u8 c.val.comfort = x.toUInt8 := by
    have := S.cv.u8_ok c.val.comfort (by omega) (by omega)
    apply UInt8.toNat_inj.1
    rw [UInt32.toNat_toUInt8]
    omega
  have e32 : S.cv.u32 c.val.comfort = x := by
    have := S.cv.u32_ok c.val.comfort (by omega) (by omega)
    apply UInt32.toNat_inj.1
    omega
  obtain ⟨h10, v, rfl, h11, h12, h13⟩ := comfort_same hp hacts
    (by rw [gt_iff_lt, UInt32.lt_iff_toNat_lt]; exact Nat.not_lt.2 hx) e8
  exact ⟨silent_of h10, v, hb, h11, h12, by rw [h13, e32]⟩

/-- The hypotheses are met: `SetComfortTemp(25)` modifies; the same again does not, though a refresh is
made by the worker in between. One command in all. -/
example : ∃ s₁ s₂, Reachable vent (Sys.initial (ventStart 3)) s₁ ∧
    (storedB .temps s₁.sh.trace && s₁.clients.length == 1 && match s₁.clients.map Client.prog with
      | [.ret (.comfort (.ok a))] => a.modified
      | _ => false) = true ∧
    Reachable vent s₁ s₂ ∧
    (commandsB 0xD3 s₂.sh.trace == 1 && match s₂.clients.map Client.prog with
      | [_, .ret (.comfort (.ok b))] => !b.modified && b.originalTemp == 25
      | _ => false) = true := by
  refine exec_witness2 _ ([.arrive (.setComfort 25)] ++ steps 20 (.client 0))
    ([.tick .slow] ++ steps 4 .worker ++ [.arrive (.setComfort 25)] ++ steps 3 (.client 1))
    (fun _ => trivial) _ _ ?_
  set_option maxRecDepth 8000 in decide

/-- The same for `SetFanSpeed(2)`. -/
example : ∃ s₁ s₂, Reachable vent (Sys.initial (ventStart 3)) s₁ ∧
    (storedB .profiles s₁.sh.trace && s₁.clients.length == 1 && match s₁.clients.map Client.prog with
      | [.ret (.speed (.ok a))] => a.modified && a.targetSpeed == 2
      | _ => false) = true ∧
    Reachable vent s₁ s₂ ∧
    (commandsB 0x99 s₂.sh.trace == 1 && match s₂.clients.map Client.prog with
      | [_, .ret (.speed (.ok b))] => !b.modified && b.originalSpeed == 2
      | _ => false) = true := by
  refine exec_witness2 _ ([.arrive (.setSpeed 2 false)] ++ steps 35 (.client 0))
    ([.arrive (.setSpeed 2 false)] ++ steps 5 (.client 1)) (fun _ => trivial) _ _ ?_
  set_option maxRecDepth 8000 in decide

/-- The same for `SetFanProfile(3, 40 %)`. -/
example : ∃ s₁ s₂, Reachable device (Sys.initial lopsided) s₁ ∧
    (storedB .profiles s₁.sh.trace && s₁.clients.length == 1 && match s₁.clients.map Client.prog with
      | [.ret (.speed (.ok a))] => a.modified
      | _ => false) = true ∧
    Reachable device s₁ s₂ ∧
    (commandsB 0xCF s₂.sh.trace == 1 && match s₂.clients.map Client.prog with
      | [_, .ret (.speed (.ok b))] => !b.modified && b.targetSpeed == 40
      | _ => false) = true := by
  refine exec_witness2 _ ([.arrive (.setProfile 3 40)] ++ steps 27 (.client 0))
    ([.arrive (.setProfile 3 40)] ++ steps 5 (.client 1)) (fun _ => trivial) _ _ ?_
  set_option maxRecDepth 8000 in decide

end Comfo.Props
