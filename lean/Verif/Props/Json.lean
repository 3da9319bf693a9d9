import Verif.Lemmas.JsonWrite
import Verif.Lemmas.Response
import Verif.Props.GoClient
/-!
# C89, C90: JSON
-/
namespace Comfo.Props
open Spec Comfo.Pb Comfo.Twirp Comfo.Json

/-! ## Numbers -/

theorem isInt_zero {n : Num} (h : n.mant = 0) {v : Int} : IsInt n v ↔ v = 0 := by
  unfold IsInt
  have hp : (10 : Int) ^ (-n.exp).toNat ≠ 0 := Int.pow_ne_zero (by decide)
  rw [h]
  constructor
  · intro h
    have : v * (10 : Int) ^ (-n.exp).toNat = 0 := by rw [← h]; cases n.neg <;> simp
    rcases Int.mul_eq_zero.1 this with h | h
    · exact h
    · exact absurd h hp
  · rintro rfl
    cases n.neg <;> simp

theorem whole_iff {n : Num} {v : Int} (hv : v.natAbs < 10 ^ 21) : n.whole = some v ↔ IsInt n v := by
  by_cases h0 : n.mant = 0
  · rw [isInt_zero h0, Num.whole, if_pos h0, Option.some.injEq]
    exact eq_comm
  · rw [Num.whole, if_neg h0]
    unfold IsInt
    by_cases he : 0 ≤ n.exp
    · have h1 : (-n.exp).toNat = 0 := by omega
      rw [if_pos he, h1, Int.pow_zero, Int.mul_one]
      by_cases hb : 20 < n.exp
      · rw [if_pos hb]
        simp only [Option.map_none, reduceCtorEq, false_iff]
        intro h
        have h2 : v.natAbs = n.mant * 10 ^ n.exp.toNat := by
          rw [← h, Int.natAbs_mul, Int.natAbs_pow]
          have : (if n.neg = true then -(n.mant : Int) else n.mant).natAbs = n.mant := by
            cases n.neg <;> simp
          rw [this]
          rfl
        have h3 : 10 ^ 21 ≤ 10 ^ n.exp.toNat := Nat.pow_le_pow_right (by decide) (by omega)
        have h4 : 10 ^ n.exp.toNat ≤ n.mant * 10 ^ n.exp.toNat :=
          Nat.le_mul_of_pos_left _ (Nat.pos_of_ne_zero h0)
        omega
      · rw [if_neg hb]
        simp only [Option.map_some, Option.some.injEq]
        cases n.neg <;> simp [Int.neg_mul]
    · have h1 : n.exp.toNat = 0 := by omega
      rw [if_neg he, h1, Int.pow_zero, Int.mul_one]
      have hk : 0 < 10 ^ (-n.exp).toNat := Nat.pow_pos (by decide)
      have hcast : ((10 : Int) ^ (-n.exp).toNat) = ((10 ^ (-n.exp).toNat : Nat) : Int) := by simp
      rw [hcast]
      generalize 10 ^ (-n.exp).toNat = k at hk
      generalize n.mant = m at h0
      have e1 := Nat.div_add_mod m k
      constructor
      · intro h
        split at h
        · rename_i hm
          simp only [Option.map_some, Option.some.injEq] at h
          rw [hm, Nat.add_zero] at e1
          have e2 : (m : Int) = (m / k : Nat) * (k : Int) := by
            rw [← Int.natCast_mul, Nat.mul_comm, e1]
          rw [← h]
          cases n.neg
          · simpa using e2
          · simpa [Int.neg_mul] using e2
        · cases h
      · intro h
        have e2 : m = v.natAbs * k := by
          have : (if n.neg = true then -(m : Int) else m).natAbs = m := by cases n.neg <;> simp
          rw [← this, h, Int.natAbs_mul]
          rfl
        have e3 : m % k = 0 := by rw [e2]; exact Nat.mul_mod_left _ _
        have e4 : m / k = v.natAbs := by rw [e2]; exact Nat.mul_div_cancel _ hk
        rw [if_pos e3, e4]
        simp only [Option.map_some, Option.some.injEq]
        have hk' : (0 : Int) < k := by exact_mod_cast hk
        cases hn : n.neg
        · rw [hn] at h
          simp only [Bool.false_eq_true, if_false] at h ⊢
          have : 0 ≤ v := by
            rcases Int.lt_or_le v 0 with hlt | hle
            · have := Int.mul_neg_of_neg_of_pos hlt hk'
              omega
            · exact hle
          omega
        · rw [hn] at h
          simp only [if_true] at h ⊢
          have : v ≤ 0 := by
            rcases Int.lt_or_le 0 v with hlt | hle
            · have := Int.mul_pos hlt hk'
              omega
            · exact hle
          omega

theorem u32_iff {n : Num} {x : Val} : n.u32 = some x ↔ ∃ v : UInt32, x = .u32 v ∧ IsInt n v.toNat := by
  unfold Num.u32
  constructor
  · intro h
    split at h
    · rename_i w hw
      split at h
      · rename_i hr
        cases h
        refine ⟨_, rfl, ?_⟩
        have e : ((UInt32.ofNat w.toNat).toNat : Int) = w := by
          rw [UInt32.toNat_ofNat', Nat.mod_eq_of_lt (by omega)]
          omega
        rw [e]
        exact (whole_iff (by omega)).1 hw
      · cases h
    · cases h
  · rintro ⟨v, rfl, h⟩
    have hv := v.toNat_lt
    rw [(whole_iff (by omega)).2 h]
    simp only
    rw [if_pos (by omega), Int.toNat_natCast, UInt32.ofNat_toNat]

theorem wordByte_iff {b : UInt8} : notDelim b = false ↔ ¬ WordByte b := by
  rw [← Bool.not_eq_true, not_congr]
  simp [notDelim, WordByte, isDigit, or_assoc]

theorem allSpace_last {bs : Bytes} (h : AllSpace bs) (hne : bs ≠ []) :
    ∃ e ∈ spaceEncodings, e <:+ bs := by
  induction h with
  | nil => exact absurd rfl hne
  | cons he h ih =>
    rename_i e bs
    by_cases hb : bs = []
    · subst hb
      exact ⟨e, he, by simp⟩
    · obtain ⟨e', h1, h2⟩ := ih hb
      exact ⟨e', h1, h2.trans (List.suffix_append _ _)⟩

theorem trim_same {s : Bytes} (h : ∀ e ∈ spaceEncodings, ¬ e <+: s ∧ ¬ e <:+ s) :
    (trimSpace s).length = s.length := by
  obtain ⟨pre, post, h1, h2, h3, -⟩ := trimSpace_spec s
  have hp : pre = [] := by
    cases h2 with
    | nil => rfl
    | cons he _ =>
      rename_i e bs _
      exact absurd ⟨bs ++ trimSpace s ++ post, by simpa using h1.symm⟩ (h e he).1
  have hq : post = [] := by
    refine Classical.byContradiction fun hne => ?_
    obtain ⟨e, he, hs⟩ := allSpace_last h3 hne
    exact (h e he).2 (hs.trans ⟨_, h1.symm⟩)
  subst hp hq
  simp only [List.nil_append, List.append_nil] at h1
  rw [← h1]

theorem numberIn_iff {s : Bytes} {n : Num} : numberIn s = some n ↔ NumberIn s n := by
  unfold numberIn
  constructor
  · intro h
    split at h
    · cases h
    · rename_i hl
      rw [Option.map_eq_some_iff] at h
      obtain ⟨⟨n', r⟩, h, he⟩ := h
      cases he
      obtain ⟨t, ht, hs, hf⟩ := number_sound h
      refine ⟨t, r, hs, ht, fun b hb => wordByte_iff.1 (hf b hb), fun e he => ?_⟩
      obtain ⟨pre, post, h1, -, -, h4⟩ := trimSpace_spec s
      have : pre = [] ∧ post = [] := by
        have := congrArg List.length h1
        simp only [List.length_append] at this
        exact ⟨List.length_eq_zero_iff.1 (by omega), List.length_eq_zero_iff.1 (by omega)⟩
      rw [this.1, this.2, List.nil_append, List.append_nil] at h1
      rw [h1]
      exact (h4 e he).2
  · rintro ⟨t, r, rfl, ht, hf, hs⟩
    have hp : ∀ e ∈ spaceEncodings, ¬ e <+: t ++ r := by
      intro e he hpre
      obtain ⟨b, t', rfl, hb⟩ := num_head ht
      have hhead : ∀ e ∈ spaceEncodings, e.head?.any (fun x => x ≠ 45 && !isDigit x) = true := by
        decide
      have := hhead e he
      cases e with
      | nil => cases this
      | cons x y =>
        obtain ⟨z, hz⟩ := hpre
        simp only [List.head?_cons, Option.any_some, Bool.and_eq_true, decide_eq_true_eq,
          Bool.not_eq_true'] at this
        exact digit_ne hb this.1 this.2 (List.cons.inj hz).1.symm
    rw [if_neg (fun h => h (trim_same fun e he => ⟨hp e he, hs e he⟩)),
      number_ok ht (fun b hb => wordByte_iff.2 (hf b hb))]
    rfl

/-! ## Members -/

theorem filter_none {l : List (Bytes × Json)} {k : Bytes} :
    (l.filter fun kv => kv.1 = k) = [] ↔ ∀ kv ∈ l, kv.1 ≠ k := by
  simp [List.filter_eq_nil_iff]

theorem filter_one {l : List (Bytes × Json)} {k : Bytes} {e : Bytes × Json} :
    (l.filter fun kv => kv.1 = k) = [e] ↔
      ∃ a b, l = a ++ e :: b ∧ e.1 = k ∧ ∀ kv ∈ a ++ b, kv.1 ≠ k := by
  induction l with
  | nil => simp
  | cons x l ih =>
    rw [List.filter_cons]
    by_cases hx : x.1 = k
    · simp only [hx, decide_true, if_true, List.cons.injEq]
      constructor
      · rintro ⟨rfl, h⟩
        exact ⟨[], l, rfl, hx, filter_none.1 h⟩
      · rintro ⟨a, b, h1, h2, h3⟩
        cases a with
        | nil =>
          obtain ⟨rfl, rfl⟩ := List.cons.inj h1
          exact ⟨rfl, filter_none.2 h3⟩
        | cons y a =>
          obtain ⟨rfl, rfl⟩ := List.cons.inj h1
          exact absurd hx (h3 x (by simp))
    · simp only [hx, decide_false, Bool.false_eq_true, if_false]
      rw [ih]
      constructor
      · rintro ⟨a, b, rfl, h2, h3⟩
        refine ⟨x :: a, b, rfl, h2, ?_⟩
        intro kv hkv
        rcases List.mem_cons.1 hkv with rfl | h
        · exact hx
        · exact h3 kv h
      · rintro ⟨a, b, h1, h2, h3⟩
        cases a with
        | nil =>
          obtain ⟨rfl, rfl⟩ := List.cons.inj h1
          exact absurd h2 hx
        | cons y a =>
          obtain ⟨rfl, rfl⟩ := List.cons.inj h1
          exact ⟨a, b, rfl, h2, fun kv h => h3 kv (List.mem_cons_of_mem _ h)⟩

theorem fieldOf_iff {l : List (Bytes × Json)} {f : FieldDesc} {name : String} {x : Val}
    (hn : strBytes f.name = lit name) :
    fieldOf l f = some x ↔ (Member l name none ∧ x = f.kind.zero) ∨
      ∃ v, Member l name (some v) ∧ scalarVal f.kind v = some x := by
  unfold fieldOf
  rw [hn]
  constructor
  · intro h
    split at h
    · rename_i hf
      cases h
      exact .inl ⟨.absent (filter_none.1 hf), rfl⟩
    · rename_i hf
      cases h
      obtain ⟨a, b, h1, h2, h3⟩ := filter_one.1 hf
      simp only at h2
      subst h2
      exact .inl ⟨.null h1 h3, rfl⟩
    · rename_i v hne hf
      obtain ⟨a, b, h1, h2, h3⟩ := filter_one.1 hf
      simp only at h2
      subst h2
      exact .inr ⟨_, .there h1 h3 (fun hv => hne hv), h⟩
    · cases h
  · rintro (⟨h, rfl⟩ | ⟨v, h, hx⟩)
    · cases h with
      | absent h => rw [filter_none.2 h]
      | null h1 h2 => rw [filter_one.2 ⟨_, _, h1, rfl, h2⟩]
    · cases h with
      | there h1 h2 h3 =>
        rw [filter_one.2 ⟨_, _, h1, rfl, h2⟩]
        split
        · rename_i heq; cases heq
        · rename_i heq; cases heq; exact absurd rfl h3
        · rename_i heq; cases heq; exact hx
        · rename_i h; exact (h _ _ rfl).elim

attribute [local irreducible] goEnums

theorem scalar_u32 {v : Json} {x : Val} :
    scalarVal .uint32 v = some x ↔ ∃ a, x = .u32 a ∧ IsU32 v a := by
  cases v with
  | num n =>
    show n.u32 = some x ↔ _
    rw [u32_iff]
    constructor
    · rintro ⟨a, rfl, h⟩; exact ⟨a, rfl, .num h⟩
    · rintro ⟨a, rfl, h⟩; cases h with | num h => exact ⟨a, rfl, h⟩
  | str s =>
    show (numberIn s).bind Num.u32 = some x ↔ _
    rw [Option.bind_eq_some_iff]
    constructor
    · rintro ⟨n, h1, h2⟩
      obtain ⟨a, rfl, h⟩ := u32_iff.1 h2
      exact ⟨a, rfl, .str (numberIn_iff.1 h1) h⟩
    · rintro ⟨a, rfl, h⟩
      cases h with | str h1 h2 => exact ⟨_, numberIn_iff.2 h1, u32_iff.2 ⟨a, rfl, h2⟩⟩
  | _ =>
    rw [scalarVal.eq_def]
    simp only [reduceCtorEq, false_iff]
    rintro ⟨a, rfl, h⟩
    cases h

theorem scalar_bool {v : Json} {x : Val} :
    scalarVal .bool v = some x ↔ ∃ a, x = .bool a ∧ IsBool v a := by
  cases v with
  | bool b =>
    show some (Val.bool b) = some x ↔ _
    constructor
    · intro h; cases h; exact ⟨b, rfl, .mk⟩
    · rintro ⟨a, rfl, h⟩; cases h; rfl
  | _ =>
    rw [scalarVal.eq_def]
    simp only [reduceCtorEq, false_iff]
    rintro ⟨a, rfl, h⟩
    cases h

theorem goEnums_eq : goEnums = [("BootInfo".toList, 0), ("Fans".toList, 1), ("Temps".toList, 2),
    ("Profiles".toList, 3), ("Bypass".toList, 4), ("All".toList, 10)] := by
  unfold goEnums
  rw [C67_go]
  rfl

theorem enum_find {s : Bytes} {t : Int} :
    (s, t) ∈ cacheNames ↔ ∃ e, (goEnums.find? fun e => strBytes e.1 = s) = some e ∧ t = e.2 := by
  rw [goEnums_eq]
  have hk : cacheNames = ([("BootInfo".toList, 0), ("Fans".toList, 1), ("Temps".toList, 2),
    ("Profiles".toList, 3), ("Bypass".toList, 4), ("All".toList, 10)] : List (Str × Nat)).map
      fun e => (strBytes e.1, (e.2 : Int)) := rfl
  rw [hk]
  constructor
  · intro h
    simp only [List.map_cons, List.map_nil, List.mem_cons, Prod.mk.injEq, List.not_mem_nil,
      or_false] at h
    rcases h with ⟨rfl, rfl⟩ | ⟨rfl, rfl⟩ | ⟨rfl, rfl⟩ | ⟨rfl, rfl⟩ | ⟨rfl, rfl⟩ | ⟨rfl, rfl⟩ <;>
      exact ⟨_, rfl, rfl⟩
  · rintro ⟨e, h1, rfl⟩
    have h2 := List.mem_of_find?_eq_some h1
    have h3 := List.find?_some h1
    simp only [decide_eq_true_eq] at h3
    rw [List.mem_map]
    exact ⟨e, h2, by rw [h3]⟩

theorem scalar_enum {k : Str} {v : Json} {x : Val} :
    scalarVal (.enum k) v = some x ↔ ∃ a, x = .enum a ∧ TakenForCache v a := by
  cases v with
  | str s =>
    rw [scalarVal.eq_def]
    simp only
    constructor
    · intro h
      split at h
      · rename_i e he
        cases h
        exact ⟨_, rfl, .cache (.name (enum_find.2 ⟨e, he, rfl⟩))⟩
      · rename_i he
        cases h
        refine ⟨0, rfl, .other fun t ht => ?_⟩
        obtain ⟨e, h1, -⟩ := enum_find.1 ht
        rw [he] at h1
        cases h1
    · rintro ⟨a, rfl, h⟩
      cases h with
      | cache h =>
        cases h with
        | name h =>
          obtain ⟨e, h1, rfl⟩ := enum_find.1 h
          rw [h1]
      | other h =>
        split
        · rename_i e he
          exact absurd (enum_find.2 ⟨e, he, rfl⟩) (h _)
        · rfl
  | num n =>
    rw [scalarVal.eq_def]
    simp only
    constructor
    · intro h
      split at h
      · rename_i w hw
        split at h
        · rename_i hr
          cases h
          exact ⟨w, rfl, .cache (.num ((whole_iff (by omega)).1 hw) hr.1 hr.2)⟩
        · cases h
      · cases h
    · rintro ⟨a, rfl, h⟩
      cases h with
      | cache h =>
        cases h with
        | num h1 h2 h3 =>
          rw [(whole_iff (by omega)).2 h1]
          simp only
          rw [if_pos ⟨h2, h3⟩]
  | _ =>
    rw [scalarVal.eq_def]
    simp only [reduceCtorEq, false_iff]
    rintro ⟨a, rfl, h⟩
    cases h with | cache h => cases h

/-- A field and what its member holds. -/
theorem field_holds {l : List (Bytes × Json)} {f : FieldDesc} {name : String} {α : Type}
    {R : Json → α → Prop} {mk : α → Val} {zero : α} (hn : strBytes f.name = lit name)
    (hz : f.kind.zero = mk zero)
    (hs : ∀ {v x}, scalarVal f.kind v = some x ↔ ∃ a, x = mk a ∧ R v a) {x : Val} :
    fieldOf l f = some x ↔ ∃ a, x = mk a ∧ Holds R zero l name a := by
  rw [fieldOf_iff hn]
  constructor
  · rintro (⟨h, rfl⟩ | ⟨v, h, hx⟩)
    · exact ⟨zero, hz, .inl ⟨h, rfl⟩⟩
    · obtain ⟨a, rfl, hr⟩ := hs.1 hx
      exact ⟨a, rfl, .inr ⟨v, h, hr⟩⟩
  · rintro ⟨a, rfl, h⟩
    rcases h with ⟨h, rfl⟩ | ⟨v, h, hr⟩
    · exact .inl ⟨h, hz.symm⟩
    · exact .inr ⟨v, h, hs.2 ⟨a, rfl, hr⟩⟩

theorem msgOf_obj (i : Nat) (l : List (Bytes × Json)) :
    msgOf i (.obj l) = (allOf (fieldOf l) (goMsg i)).map fun vs => ((goMsg i).map (·.num)).zip vs := rfl

theorem allOf_one {f : α → Option β} {a : α} {ys : List β} :
    allOf f [a] = some ys ↔ ∃ y, f a = some y ∧ ys = [y] := by
  simp only [allOf]
  cases f a <;> simp [eq_comm]

theorem allOf_two {f : α → Option β} {a b : α} {ys : List β} :
    allOf f [a, b] = some ys ↔ ∃ y z, f a = some y ∧ f b = some z ∧ ys = [y, z] := by
  simp only [allOf]
  cases f a <;> cases f b <;> simp [eq_comm]

/-- What an object asks for is what the server takes it for. -/
theorem msg_asks {m : Method} {l : List (Bytes × Json)} {c : Call} :
    (msgOf (goInput m) (.obj l)).map (goCall m) = some c ↔ Asks m l c := by
  have h0 : goMsg 0 = [] := by rw [goMsg_eq]; rfl
  rw [msgOf_obj, Option.map_map]
  cases m
  case setFanSpeed =>
    have e : goMsg (goInput .setFanSpeed) = [pbField .uint32 "Abs" 1, pbField .bool "Rel" 2] := by
      rw [goMsg_eq]; rfl
    rw [e, Option.map_eq_some_iff]
    simp only [allOf_two, field_holds (name := "Abs") (f := pbField .uint32 "Abs" 1) (mk := .u32)
        (zero := 0) rfl rfl scalar_u32,
      field_holds (name := "Rel") (f := pbField .bool "Rel" 2) (mk := .bool) (zero := false) rfl rfl
        scalar_bool]
    constructor
    · rintro ⟨_, ⟨_, _, ⟨a, rfl, ha⟩, ⟨b, rfl, hb⟩, rfl⟩, rfl⟩
      exact ⟨a, b, rfl, ha, hb⟩
    · rintro ⟨a, b, rfl, ha, hb⟩
      exact ⟨_, ⟨_, _, ⟨a, rfl, ha⟩, ⟨b, rfl, hb⟩, rfl⟩, rfl⟩
  case setComfortTemp =>
    have e : goMsg (goInput .setComfortTemp) = [pbField .uint32 "ComfortTemp" 1] := by
      rw [goMsg_eq]; rfl
    rw [e, Option.map_eq_some_iff]
    simp only [allOf_one, field_holds (name := "ComfortTemp") (f := pbField .uint32 "ComfortTemp" 1)
        (mk := .u32) (zero := 0) rfl rfl scalar_u32]
    constructor
    · rintro ⟨_, ⟨_, ⟨a, rfl, ha⟩, rfl⟩, rfl⟩
      exact ⟨a, rfl, ha⟩
    · rintro ⟨a, rfl, ha⟩
      exact ⟨_, ⟨_, ⟨a, rfl, ha⟩, rfl⟩, rfl⟩
  case setFanProfile =>
    have e : goMsg (goInput .setFanProfile) = [pbField .uint32 "Mode" 1,
        pbField .uint32 "TargetSpeed" 2] := by
      rw [goMsg_eq]; rfl
    rw [e, Option.map_eq_some_iff]
    simp only [allOf_two, field_holds (name := "Mode") (f := pbField .uint32 "Mode" 1) (mk := .u32)
        (zero := 0) rfl rfl scalar_u32,
      field_holds (name := "TargetSpeed") (f := pbField .uint32 "TargetSpeed" 2) (mk := .u32)
        (zero := 0) rfl rfl scalar_u32]
    constructor
    · rintro ⟨_, ⟨_, _, ⟨a, rfl, ha⟩, ⟨b, rfl, hb⟩, rfl⟩, rfl⟩
      exact ⟨a, b, rfl, ha, hb⟩
    · rintro ⟨a, b, rfl, ha, hb⟩
      exact ⟨_, ⟨_, _, ⟨a, rfl, ha⟩, ⟨b, rfl, hb⟩, rfl⟩, rfl⟩
  case flushCache =>
    have e : goMsg (goInput .flushCache) =
        [pbField (.enum ".comfo.api.FlushCacheRequest.CacheType".toList) "Cache" 1] := by
      rw [goMsg_eq]; rfl
    rw [e, Option.map_eq_some_iff]
    simp only [allOf_one, field_holds (name := "Cache")
        (f := pbField (.enum ".comfo.api.FlushCacheRequest.CacheType".toList) "Cache" 1)
        (mk := .enum) (zero := 0) rfl rfl scalar_enum]
    constructor
    · rintro ⟨_, ⟨_, ⟨a, rfl, ha⟩, rfl⟩, rfl⟩
      exact ⟨a, rfl, ha⟩
    · rintro ⟨a, rfl, ha⟩
      exact ⟨_, ⟨_, ⟨a, rfl, ha⟩, rfl⟩, rfl⟩
  all_goals
    simp only [goInput, h0, allOf, Option.map_some, Option.some.injEq, Asks]
    exact eq_comm

/-- **C89** A JSON body is decoded exactly if it is an object that asks for something; anything
else is refused. -/
theorem C89_request {m : Method} {body : Bytes} {c : Call} :
    jsonRequest m body = some c ↔ ∃ l, IsBody l body ∧ Asks m l c := by
  unfold jsonRequest
  constructor
  · intro h
    split at h
    · cases h
    · rename_i v hv
      cases v with
      | obj l => exact ⟨l, decode_iff.1 hv, msg_asks.1 h⟩
      | _ => cases h
  · rintro ⟨l, h1, h2⟩
    rw [decode_iff.2 h1]
    exact msg_asks.2 h2

/-! ## Messages that are written -/

/-- A field of a message, its value, the value in JSON, and its text. -/
structure Item where
  f : FieldDesc
  v : Val
  j : Json
  t : Bytes

/-- The text is that of the value, which is read from it. -/
structure Item.Good (i : Item) : Prop where
  text : valText i.f.kind i.v = some i.t
  scalar : Scalar i.j i.t
  ne : i.j ≠ .null
  back : scalarVal i.f.kind i.j = some i.v

def Item.pair (i : Item) : Nat × Val := (i.f.num, i.v)

def Item.member (i : Item) : Bytes × Json := (strBytes i.f.name, i.j)

theorem allOf_map {f : α → Option β} {g : α → β} : ∀ {l : List α}, (∀ a ∈ l, f a = some (g a)) →
    allOf f l = some (l.map g)
  | [], _ => rfl
  | a :: l, h => by
    rw [allOf, h a (by simp), allOf_map fun b hb => h b (List.mem_cons_of_mem _ hb)]
    rfl

theorem lookup_pair : ∀ {l : List Item}, (l.map (·.f.num)).Nodup → ∀ i ∈ l,
    (l.map Item.pair).lookup i.f.num = some i.v
  | [], _, _, h => by cases h
  | a :: l, hd, i, h => by
    rw [List.map_cons, List.nodup_cons] at hd
    rw [List.map_cons, Item.pair, List.lookup_cons]
    rcases List.mem_cons.1 h with rfl | h
    · simp
    · have : i.f.num ≠ a.f.num := fun e => hd.1 (e ▸ List.mem_map_of_mem h)
      rw [show (i.f.num == a.f.num) = false by simpa using this]
      exact lookup_pair hd.2 i h

theorem member_once : ∀ {l : List Item}, (l.map (fun i => strBytes i.f.name)).Nodup → ∀ i ∈ l,
    ((l.map Item.member).filter fun kv => kv.1 = strBytes i.f.name) = [i.member]
  | [], _, _, h => by cases h
  | a :: l, hd, i, h => by
    rw [List.map_cons, List.nodup_cons] at hd
    rw [List.map_cons, List.filter_cons]
    rcases List.mem_cons.1 h with rfl | h
    · simp only [Item.member, decide_true, if_true, List.cons.injEq, true_and]
      rw [filter_none]
      intro kv hkv e
      obtain ⟨x, hx, rfl⟩ := List.mem_map.1 hkv
      exact hd.1 (List.mem_map.2 ⟨x, hx, e⟩)
    · have : strBytes a.f.name ≠ strBytes i.f.name := fun e =>
        hd.1 (e ▸ List.mem_map_of_mem (f := fun i : Item => strBytes i.f.name) h)
      simp only [Item.member, this, decide_false, Bool.false_eq_true, if_false]
      exact member_once hd.2 i h

theorem mem_unique {α β : Type} {f : α → β} : ∀ {l : List α}, (l.map f).Nodup → ∀ {a b}, a ∈ l → b ∈ l →
    f a = f b → a = b
  | [], _, _, _, h, _, _ => by cases h
  | x :: l, hd, a, b, ha, hb, e => by
    rw [List.map_cons, List.nodup_cons] at hd
    rcases List.mem_cons.1 ha with h1 | h1 <;> rcases List.mem_cons.1 hb with h2 | h2
    · rw [h1, h2]
    · exact absurd (h1 ▸ e ▸ List.mem_map_of_mem h2) hd.1
    · exact absurd (h2 ▸ e ▸ List.mem_map_of_mem h1) hd.1
    · exact mem_unique hd.2 h1 h2 e

/-- What is written of a message. -/
def kept (all : Bool) (l : List Item) : List Item :=
  l.filter fun i => all || decide (i.v ≠ i.f.kind.zero)

theorem kept_all (l : List Item) : kept true l = l := by simp [kept]

theorem written (sp all : Bool) (n : Nat) (l : List Item) (hm : goMsg n = l.map (·.f))
    (hg : ∀ i ∈ l, i.Good) (h1 : (l.map (·.f.num)).Nodup)
    (h2 : (l.map (fun i => strBytes i.f.name)).Nodup) :
    ∃ b, msgText sp all n (l.map Item.pair) = some b ∧
      Text 10000 (.obj ((kept all l).map Item.member)) b ∧
      msgOf n (.obj ((kept all l).map Item.member)) = some (l.map Item.pair) := by
  refine ⟨123 :: joinText sp ((kept all l).map fun i => quote (strBytes i.f.name) ++ 58 :: i.t) ++ [125],
    ?_, ?_, ?_⟩
  · have e1 : allOf (fun f => ((l.map Item.pair).lookup f.num).map fun v => (f, v)) (l.map (·.f)) =
        some (l.map fun i => (i.f, i.v)) := by
      have : ∀ {l' : List Item}, (∀ i ∈ l', (l.map Item.pair).lookup i.f.num = some i.v) →
          allOf (fun f => ((l.map Item.pair).lookup f.num).map fun v => (f, v)) (l'.map (·.f)) =
            some (l'.map fun i => (i.f, i.v)) := by
        intro l' h
        induction l' with
        | nil => rfl
        | cons a l' ih =>
          rw [List.map_cons, allOf, h a (by simp), ih fun i hi => h i (List.mem_cons_of_mem _ hi)]
          rfl
      exact this (lookup_pair h1)
    have e2 : ((l.map fun i => (i.f, i.v)).filter fun fv => all || decide (fv.2 ≠ fv.1.kind.zero)) =
        (kept all l).map fun i => (i.f, i.v) := by
      rw [List.filter_map]
      rfl
    have e3 : ∀ {l' : List Item}, (∀ i ∈ l', i.Good) →
        allOf (fun fv : FieldDesc × Val => memberText fv.1 fv.2) (l'.map fun i => (i.f, i.v)) =
          some (l'.map fun i => quote (strBytes i.f.name) ++ 58 :: i.t) := by
      intro l' h
      induction l' with
      | nil => rfl
      | cons a l' ih =>
        rw [List.map_cons, allOf, ih fun i hi => h i (List.mem_cons_of_mem _ hi)]
        simp only [memberText, (h a (by simp)).text, Option.map_some, List.map_cons]
    unfold msgText
    rw [hm, e1]
    simp only
    rw [e2, e3 (l' := kept all l) fun i hi => hg i (List.mem_filter.1 hi).1]
  · refine object_text fun i hi => ?_
    exact ⟨_, _, rfl, quote_text (utf8_text _), scalar_is_text (hg i (List.mem_filter.1 hi).1).scalar⟩
  · have e : allOf (fieldOf ((kept all l).map Item.member)) (l.map (·.f)) = some (l.map (·.v)) := by
      have hsub : ((kept all l).map (fun i => strBytes i.f.name)).Nodup :=
        (List.filter_sublist.map _).nodup h2
      have hf : ∀ i ∈ l, fieldOf ((kept all l).map Item.member) i.f = some i.v := by
        intro i hi
        unfold fieldOf
        by_cases hk : i ∈ kept all l
        · rw [member_once hsub i hk, Item.member]
          split
          · rename_i h; cases h
          · rename_i h
            exact absurd (congrArg Prod.snd (List.cons.inj h).1) (hg i hi).ne
          · rename_i h
            cases h
            exact (hg i hi).back
          · rename_i h
            exact (h _ _ rfl).elim
        · have hz : i.v = i.f.kind.zero := by
            refine Classical.byContradiction fun h => hk ?_
            rw [kept, List.mem_filter]
            exact ⟨hi, by simp [h]⟩
          have : (((kept all l).map Item.member).filter fun kv => kv.1 = strBytes i.f.name) = [] := by
            rw [filter_none]
            intro kv hkv e
            obtain ⟨x, hx, rfl⟩ := List.mem_map.1 hkv
            have hxi : x = i := by
              have hx' := (List.mem_filter.1 hx).1
              exact mem_unique h2 hx' hi e
            exact hk (hxi ▸ hx)
          rw [this, hz]
      have : ∀ {l' : List Item}, (∀ i ∈ l', fieldOf ((kept all l).map Item.member) i.f = some i.v) →
          allOf (fieldOf ((kept all l).map Item.member)) (l'.map (·.f)) = some (l'.map (·.v)) := by
        intro l' h
        induction l' with
        | nil => rfl
        | cons a l' ih =>
          rw [List.map_cons, allOf, h a (by simp), ih fun i hi => h i (List.mem_cons_of_mem _ hi)]
          rfl
      exact this hf
    rw [msgOf_obj, hm, e, Option.map_some, Option.some.injEq, List.map_map]
    clear e hm hg h1 h2
    induction l with
    | nil => rfl
    | cons a l ih => simp only [List.map_cons, List.zip_cons_cons, ih]; rfl

/-! ## Values -/

def uItem (name : String) (num : Nat) (v : UInt32) : Item :=
  ⟨pbField .uint32 name num, .u32 v, nat v, digits 20 v.toNat⟩

def bItem (name : String) (num : Nat) (b : Bool) : Item :=
  ⟨pbField .bool name num, .bool b, .bool b, if b then lit "true" else lit "false"⟩

def sItem (name : String) (num : Nat) (s : Bytes) : Item :=
  ⟨pbField .string name num, .str s, .str s, quote s⟩

def fItem (name : String) (num : Nat) (t : Int) : Item :=
  ⟨pbField .float name num, .f32 (f32Bits t), int t, intText t⟩

/-- The name of a cache, or its number if it has none. -/
def cacheJson (t : Int) : Json :=
  match cacheNames.find? fun e => e.2 = t with
  | some e => .str e.1
  | none => int t

def eItem (t : Int) : Item :=
  ⟨pbField (.enum ".comfo.api.FlushCacheRequest.CacheType".toList) "Cache" 1, .enum t, cacheJson t,
    match cacheNames.find? fun e => e.2 = t with
    | some e => quote e.1
    | none => intText t⟩

theorem isInt_int (v : Int) : IsInt ⟨decide (v < 0), v.natAbs, 0⟩ v := by
  unfold IsInt
  simp only [Int.toNat_zero, Int.neg_zero, Int.pow_zero, Int.mul_one, decide_eq_true_eq]
  split <;> omega

theorem uItem_good (name : String) (num : Nat) (v : UInt32) : (uItem name num v).Good where
  text := rfl
  scalar := nat_text v
  ne := nofun
  back := scalar_u32.2 ⟨v, rfl, .num (isInt_int _)⟩

theorem bItem_good (name : String) (num : Nat) (b : Bool) : (bItem name num b).Good where
  text := rfl
  scalar := bool_text b
  ne := nofun
  back := rfl

theorem sItem_good (name : String) (num : Nat) {s : Bytes} (h : validUtf8 s = true) :
    (sItem name num s).Good where
  text := if_pos h
  scalar := .str (quote_text h)
  ne := nofun
  back := rfl

theorem fItem_good (name : String) (num : Nat) {t : Int} (h : Exact t) : (fItem name num t).Good where
  text := by
    show (f32Value (f32Bits t)).map intText = _
    rw [f32_ok h]
    rfl
  scalar := int_text (by have := h.1; have := h.2; omega)
  ne := nofun
  back := by
    show Num.f32 _ = _
    have := h.1
    have := h.2
    unfold Num.f32
    rw [(whole_iff (by omega)).2 (isInt_int t)]
    exact if_pos h

theorem cacheNames_eq : cacheNames = goEnums.map fun e => (strBytes e.1, (e.2 : Int)) := by
  rw [goEnums_eq]
  rfl

theorem cache_find (t : Int) : (cacheNames.find? fun e => e.2 = t) =
    (goEnums.find? fun e => (e.2 : Int) = t).map fun e => (strBytes e.1, (e.2 : Int)) := by
  rw [cacheNames_eq, List.find?_map]
  rfl

theorem eItem_good {t : Int} (h : -2147483648 ≤ t ∧ t < 2147483648) : (eItem t).Good := by
  have hc := cache_find t
  cases hf : goEnums.find? fun e => (e.2 : Int) = t with
  | some e =>
    rw [hf, Option.map_some] at hc
    have hj : cacheJson t = .str (strBytes e.1) := by rw [cacheJson, hc]
    have ht : (eItem t).t = quote (strBytes e.1) := by rw [eItem, hc]
    have he := List.find?_some hf
    simp only [decide_eq_true_eq] at he
    refine ⟨?_, ?_, ?_, ?_⟩
    · rw [ht]
      show valText (.enum _) (.enum t) = _
      rw [valText.eq_def]
      simp only
      rw [hf]
    · rw [ht]
      show Scalar (cacheJson t) _
      rw [hj]
      exact .str (quote_text (utf8_text _))
    · show cacheJson t ≠ _
      rw [hj]
      nofun
    · show scalarVal _ (cacheJson t) = _
      rw [hj]
      refine scalar_enum.2 ⟨t, rfl, .cache (.name ?_)⟩
      rw [cacheNames_eq, List.mem_map]
      exact ⟨e, List.mem_of_find?_eq_some hf, by rw [he]⟩
  | none =>
    rw [hf, Option.map_none] at hc
    have hj : cacheJson t = int t := by rw [cacheJson, hc]
    have ht : (eItem t).t = intText t := by rw [eItem, hc]
    refine ⟨?_, ?_, ?_, ?_⟩
    · rw [ht]
      show valText (.enum _) (.enum t) = _
      rw [valText.eq_def]
      simp only
      rw [hf]
    · rw [ht]
      show Scalar (cacheJson t) _
      rw [hj]
      exact int_text (by omega)
    · show cacheJson t ≠ _
      rw [hj]
      nofun
    · show scalarVal _ (cacheJson t) = _
      rw [hj]
      exact scalar_enum.2 ⟨t, rfl, .cache (.num (isInt_int t) h.1 h.2)⟩

/-! ## Answers and requests -/

/-- The fields of an answer. -/
def answerItems : Resp → List Item
  | .bypass (.ok b) => [uItem "Factor" 1 b.factor, uItem "Level" 2 b.level,
      uItem "Correction" 3 b.correction, bItem "SummerMode" 4 b.summerMode]
  | .boot (.ok b) => [uItem "MajorVersion" 1 b.majorVersion, uItem "MinorVersion" 2 b.minorVersion,
      uItem "BetaVersion" 3 b.betaVersion, sItem "DeviceName" 4 b.deviceName]
  | .comfort (.ok c) => [bItem "Modified" 1 c.modified, uItem "OriginalTemp" 2 c.originalTemp,
      uItem "TargetTemp" 3 c.targetTemp, sItem "ReqTime" 4 (durString c.reqTime)]
  | .errors (.ok e) => [bItem "Filter" 1 e.filter]
  | .fans (.ok f) => [uItem "InPercent" 1 f.inPercent, uItem "OutPercent" 2 f.outPercent,
      uItem "InSpeed" 3 f.inSpeed, uItem "OutSpeed" 4 f.outSpeed]
  | .profiles (.ok p) => [uItem "OutAway" 1 p.outAway, uItem "OutLow" 2 p.outLow,
      uItem "OutMid" 3 p.outMid, uItem "OutHigh" 4 p.outHigh, bItem "InFanActive" 5 p.inFanActive,
      uItem "InAway" 6 p.inAway, uItem "InLow" 7 p.inLow, uItem "InMid" 8 p.inMid,
      uItem "InHigh" 9 p.inHigh, uItem "CurrentOut" 10 p.currentOut,
      uItem "CurrentIn" 11 p.currentIn, uItem "CurrentMode" 12 p.currentMode]
  | .speed (.ok s) => [bItem "Modified" 1 s.modified, uItem "OriginalSpeed" 2 s.originalSpeed,
      uItem "TargetSpeed" 3 s.targetSpeed, sItem "ReqTime" 4 (durString s.reqTime)]
  | .temps (.ok t) => [fItem "Comfort" 1 t.comfort, fItem "OutsideAir" 2 t.outsideAir,
      fItem "SupplyAir" 3 t.supplyAir, fItem "InsideAir" 4 t.insideAir,
      fItem "ExhaustAir" 5 t.exhaustAir, fItem "GeoHeat" 6 t.geoHeat,
      fItem "Reheating" 7 t.reheating, fItem "KitchenHood" 8 t.kitchenHood]
  | .flushed (.ok f) => [bItem "Success" 1 f.success, sItem "ReqTime" 2 (durString f.reqTime)]
  | _ => []

/-- The fields of a request. -/
def callItems : Call → List Item
  | .setSpeed a r => [uItem "Abs" 1 a, bItem "Rel" 2 r]
  | .setComfort t => [uItem "ComfortTemp" 1 t]
  | .setProfile m t => [uItem "Mode" 1 m, uItem "TargetSpeed" 2 t]
  | .flush t => [eItem t]
  | _ => []

theorem forall_cons {p : α → Prop} {a : α} {l : List α} (h : p a) (h' : ∀ b ∈ l, p b) :
    ∀ b ∈ a :: l, p b := by
  intro b hb
  rcases List.mem_cons.1 hb with rfl | hb
  · exact h
  · exact h' b hb

theorem answer_good : ∀ {r : Resp}, r.marshals = true → ExactTemps r → ∀ i ∈ answerItems r, i.Good
  | .bypass (.ok _), _, _ => forall_cons (uItem_good ..) <| forall_cons (uItem_good ..) <|
      forall_cons (uItem_good ..) <| forall_cons (bItem_good ..) fun _ h => absurd h List.not_mem_nil
  | .boot (.ok _), hu, _ => forall_cons (uItem_good ..) <| forall_cons (uItem_good ..) <|
      forall_cons (uItem_good ..) <| forall_cons (sItem_good _ _ hu) fun _ h => absurd h List.not_mem_nil
  | .comfort (.ok _), _, _ => forall_cons (bItem_good ..) <| forall_cons (uItem_good ..) <|
      forall_cons (uItem_good ..) <| forall_cons (sItem_good _ _ (durString_ok _).1)
      fun _ h => absurd h List.not_mem_nil
  | .errors (.ok _), _, _ => forall_cons (bItem_good ..) fun _ h => absurd h List.not_mem_nil
  | .fans (.ok _), _, _ => forall_cons (uItem_good ..) <| forall_cons (uItem_good ..) <|
      forall_cons (uItem_good ..) <| forall_cons (uItem_good ..) fun _ h => absurd h List.not_mem_nil
  | .profiles (.ok _), _, _ => forall_cons (uItem_good ..) <| forall_cons (uItem_good ..) <|
      forall_cons (uItem_good ..) <| forall_cons (uItem_good ..) <| forall_cons (bItem_good ..) <|
      forall_cons (uItem_good ..) <| forall_cons (uItem_good ..) <| forall_cons (uItem_good ..) <|
      forall_cons (uItem_good ..) <| forall_cons (uItem_good ..) <| forall_cons (uItem_good ..) <|
      forall_cons (uItem_good ..) fun _ h => absurd h List.not_mem_nil
  | .speed (.ok _), _, _ => forall_cons (bItem_good ..) <| forall_cons (uItem_good ..) <|
      forall_cons (uItem_good ..) <| forall_cons (sItem_good _ _ (durString_ok _).1)
      fun _ h => absurd h List.not_mem_nil
  | .temps (.ok _), _, ⟨h1, h2, h3, h4, h5, h6, h7, h8⟩ => forall_cons (fItem_good _ _ h1) <|
      forall_cons (fItem_good _ _ h2) <| forall_cons (fItem_good _ _ h3) <|
      forall_cons (fItem_good _ _ h4) <| forall_cons (fItem_good _ _ h5) <|
      forall_cons (fItem_good _ _ h6) <| forall_cons (fItem_good _ _ h7) <|
      forall_cons (fItem_good _ _ h8) fun _ h => absurd h List.not_mem_nil
  | .flushed (.ok _), _, _ => forall_cons (bItem_good ..) <|
      forall_cons (sItem_good _ _ (durString_ok _).1) fun _ h => absurd h List.not_mem_nil
  | .bypass (.err _), _, _ | .boot (.err _), _, _ | .comfort (.err _), _, _
  | .errors (.err _), _, _ | .fans (.err _), _, _ | .profiles (.err _), _, _
  | .speed (.err _), _, _ | .temps (.err _), _, _ | .flushed (.err _), _, _
  | .packet _, _, _ | .value _ _, _, _ | .err _, _, _ =>
      fun _ h => absurd h List.not_mem_nil

theorem answer_msg {m : Method} {r : Resp} (hs : Success m r) :
    goMsg (goOutput m) = (answerItems r).map (·.f) ∧ (answerItems r).map Item.pair = answerFields r ∧
      (answerItems r).map Item.member = answerJson r := by
  rw [goMsg_eq]
  cases m <;> rcases r with a | a | a | a | a | a | a | a | a | a <;> (try cases a) <;> first
    | exact False.elim hs
    | exact ⟨rfl, rfl, rfl⟩

theorem answer_nodup (r : Resp) : ((answerItems r).map (·.f.num)).Nodup ∧
    ((answerItems r).map (fun i => strBytes i.f.name)).Nodup := by
  rcases r with a | a | a | a | a | a | a | a | a | a <;> (try cases a) <;> first
    | exact ⟨.nil, .nil⟩
    | skip
  all_goals
    simp only [answerItems, List.map_cons, List.map_nil, uItem, bItem, sItem, fItem, pbField]
    decide

theorem call_items {c : Call} {m : Method} (hm : c.method = some m) :
    goMsg (goInput m) = (callItems c).map (·.f) ∧ (callItems c).map Item.pair = goArg c := by
  rw [goMsg_eq]
  cases c <;> simp only [Call.method, Option.some.injEq, reduceCtorEq] at hm <;> subst hm <;>
    exact ⟨rfl, rfl⟩

theorem call_good : ∀ {c : Call}, ArgFits c → ∀ i ∈ callItems c, i.Good
  | .setSpeed _ _, _ => forall_cons (uItem_good ..) <| forall_cons (bItem_good ..)
      fun _ h => absurd h List.not_mem_nil
  | .setComfort _, _ => forall_cons (uItem_good ..) fun _ h => absurd h List.not_mem_nil
  | .setProfile _ _, _ => forall_cons (uItem_good ..) <| forall_cons (uItem_good ..)
      fun _ h => absurd h List.not_mem_nil
  | .flush _, h => forall_cons (eItem_good h) fun _ h => absurd h List.not_mem_nil
  | .getBoot, _ | .getTemps, _ | .getBypass, _ | .getFans, _ | .getProfiles, _ | .getErrors, _
  | .libQuery _, _ | .libGet _, _ | .libSetComfort _, _ | .libSetSpeed _, _ | .libSetProfile _ _, _
  | .libSetProfiles _, _ => fun _ h => absurd h List.not_mem_nil

theorem call_nodup (c : Call) : ((callItems c).map (·.f.num)).Nodup ∧
    ((callItems c).map (fun i => strBytes i.f.name)).Nodup := by
  cases c <;> first
    | exact ⟨.nil, .nil⟩
    | (simp only [callItems, List.map_cons, List.map_nil, uItem, bItem, eItem, pbField]; decide)

theorem call_back {c : Call} {m : Method} (hm : c.method = some m) : goCall m (goArg c) = c := by
  cases c <;> simp only [Call.method, Option.some.injEq, reduceCtorEq] at hm <;> subst hm <;> rfl

end Comfo.Props
