import Verif.Spec.Repr
import Verif.Model.GoClient
/-!
# C99: what is printed for a result in Python
-/
namespace Comfo.Props
open Spec Comfo.Twirp

/-! ## Numbers -/

theorem dec_char {d : Nat} (h : d < 10) : isDec (Char.ofNat (48 + d)) = true ∧ (Char.ofNat (48 + d)).toNat - 48 = d := by
  have : ∀ d : Fin 10, isDec (Char.ofNat (48 + d.val)) = true ∧ (Char.ofNat (48 + d.val)).toNat - 48 = d.val := by
    decide +kernel
  exact this ⟨d, h⟩

theorem decText_dec (k n : Nat) : ∀ c ∈ decText k n, isDec c = true := by
  induction k generalizing n with
  | zero => simp [decText]
  | succ k ih =>
    intro c hc
    rw [decText] at hc
    split at hc
    · rename_i h
      rw [List.mem_singleton.1 hc]
      exact (dec_char h).1
    · rcases List.mem_append.1 hc with hc | hc
      · exact ih _ c hc
      · rw [List.mem_singleton.1 hc]
        exact (dec_char (Nat.mod_lt _ (by decide))).1

theorem decText_ne (k n : Nat) (hk : 0 < k) : decText k n ≠ [] := by
  cases k with
  | zero => omega
  | succ k => rw [decText]; split <;> simp

theorem decText_val (k n : Nat) (hn : n < 10 ^ k) (hk : 0 < k) : decimal (decText k n) = n := by
  induction k generalizing n with
  | zero => omega
  | succ k ih =>
    rw [decText]
    split
    · rename_i h
      simp only [decimal, List.foldl, (dec_char h).2]
      omega
    · rename_i h
      have hk : 0 < k := by
        rcases Nat.eq_zero_or_pos k with rfl | h'
        · simp at hn; omega
        · exact h'
      have := ih (n / 10) (by rw [Nat.pow_succ] at hn; omega) hk
      rw [decimal] at this
      rw [decimal, List.foldl_append, this]
      simp only [List.foldl, (dec_char (Nat.mod_lt n (by decide : 0 < 10))).2]
      omega

/-- Digits followed by something else. -/
theorem dec_stop {xs r : Str} (h : ∀ c ∈ xs, isDec c = true) (hr : ∀ c s, r = c :: s → isDec c = false) :
    (xs ++ r).takeWhile isDec = xs ∧ (xs ++ r).dropWhile isDec = r := by
  induction xs with
  | nil =>
    cases r with
    | nil => simp
    | cons c s => simp [hr c s rfl]
  | cons x xs ih =>
    have := ih fun c hc => h c (by simp [hc])
    simpa [h x (by simp)] using this

/-- What can follow a value. -/
def Ends (r : Str) : Prop := ∃ s, r = ',' :: s ∨ r = '}' :: s

theorem Ends.dec {r : Str} (h : Ends r) : ∀ c s, r = c :: s → isDec c = false := by
  intro c s e
  obtain ⟨t, rfl | rfl⟩ := h <;> (cases e; decide)

/-- Text that begins with a digit. -/
theorem dec_head {xs : Str} (hx : xs ≠ []) (h : ∀ c ∈ xs, isDec c = true) (r : Str) :
    ∃ c s, xs ++ r = c :: s ∧ isDec c = true := by
  cases xs with
  | nil => exact absurd rfl hx
  | cons x xs => exact ⟨x, xs ++ r, rfl, h x (by simp)⟩

theorem readField_num {s : Str} {c : Char} {t : Str} (e : s = c :: t) (hc : isDec c = true ∨ c = '-') :
    readField s = readNum s := by
  subst e
  unfold readField
  split <;> first | rfl | (rename_i h; cases h; exact absurd hc (by decide))

theorem readNum_pos {xs r : Str} (hx : xs ≠ []) (h : ∀ c ∈ xs, isDec c = true)
    (hr : ∀ c s, r = c :: s → isDec c = false) :
    readNum (xs ++ r) = match (generalizing := false) r with
      | '.' :: '0' :: r' => some (.float (decimal xs : Int), r')
      | r' => some (.int (decimal xs), r') := by
  obtain ⟨c, s, e, hc⟩ := dec_head hx h r
  obtain ⟨e1, e2⟩ := dec_stop h hr
  unfold readNum
  split
  · rename_i h'
    rw [h'] at e
    cases e
    exact absurd hc (by decide)
  · rename_i r' _ 
    rw [e1, e2, if_neg hx]
    rfl

theorem readField_int {n : Nat} (hn : n < 10 ^ 20) {r : Str} (hr : Ends r) (pr : Char → Bool) :
    readField ((Field.int n).repr pr ++ r) = some (.int n, r) := by
  have hx := decText_ne 20 n (by decide)
  have h := decText_dec 20 n
  obtain ⟨c, s, e, hc⟩ := dec_head hx h r
  simp only [Field.repr]
  rw [readField_num e (.inl hc), readNum_pos hx h hr.dec, decText_val 20 n hn (by decide)]
  obtain ⟨t, rfl | rfl⟩ := hr <;> rfl

theorem readField_float {t : Int} (ht : t.natAbs < 10 ^ 20) {r : Str} (pr : Char → Bool) :
    readField ((Field.float t).repr pr ++ r) = some (.float t, r) := by
  have hx := decText_ne 20 t.natAbs (by decide)
  have h := decText_dec 20 t.natAbs
  have hd : ∀ (c : Char) (s : Str), ".0".toList ++ r = c :: s → isDec c = false := by
    intro c s e; cases e; decide
  simp only [Field.repr]
  split
  · rename_i h0
    have e : ('-' :: (decText 20 t.natAbs ++ ".0".toList)) ++ r = '-' :: (decText 20 t.natAbs ++ (".0".toList ++ r)) := by
      simp
    obtain ⟨e1, e2⟩ := dec_stop h hd
    rw [e, readField_num rfl (.inr rfl)]
    simp only [readNum, e1, e2, if_neg hx, decText_val 20 _ ht (by decide)]
    change some (Field.float (-(t.natAbs : Int)), r) = _
    rw [show -(t.natAbs : Int) = t by omega]
  · rename_i h0
    obtain ⟨c, s, e, hc⟩ := dec_head hx h (".0".toList ++ r)
    rw [List.append_assoc, readField_num e (.inl hc), readNum_pos hx h hd, decText_val 20 _ ht (by decide)]
    change some (Field.float (t.natAbs : Int), r) = _
    rw [show (t.natAbs : Int) = t by omega]

theorem readField_bool (b : Bool) (r : Str) (pr : Char → Bool) :
    readField ((Field.bool b).repr pr ++ r) = some (.bool b, r) := by
  cases b <;> rfl

/-! ## Strings -/

theorem hex_char {d : Nat} (h : d < 16) : hexVal? (hexCh d) = some d := by
  have : ∀ d : Fin 16, hexVal? (hexCh d.val) = some d.val := by decide +kernel
  exact this ⟨d, h⟩

theorem hexStr_val (k n : Nat) (hn : n < 16 ^ k) :
    (hexStr k n).foldl (fun n d => n.bind fun n => (hexVal? d).map fun d => 16 * n + d) (some 0) = some n := by
  induction k generalizing n with
  | zero => simp at hn; subst hn; rfl
  | succ k ih =>
    rw [hexStr, List.foldl_append, ih (n / 16) (by rw [Nat.pow_succ] at hn; omega)]
    simp only [List.foldl, Option.bind_some, hex_char (Nat.mod_lt n (by decide : 0 < 16)), Option.map_some]
    congr 1; omega

theorem charOf_hex (k : Nat) (c : Char) (h : c.toNat < 16 ^ k) : charOf (hexStr k c.toNat) = some c := by
  unfold charOf
  rw [hexStr_val k _ h, Option.bind_some, if_pos (show c.toNat.isValidChar from c.valid)]
  simp

theorem readStr_plain {q c : Char} (h1 : c ≠ '\\') (h2 : c ≠ q) (r : Str) :
    readStr q (c :: r) = (readStr q r).map fun x => (c :: x.1, x.2) := by
  rw [readStr.eq_def]
  split
  all_goals first
    | (rename_i h; cases h; exact absurd rfl h1)
    | skip
  · rename_i h; cases h
  · rename_i h; cases h; rw [if_neg h2]

theorem readStr_end {q : Char} (h : q ≠ '\\') (r : Str) : readStr q (q :: r) = some ([], r) := by
  rw [readStr.eq_def]
  split
  all_goals first
    | (rename_i h'; cases h'; exact absurd rfl h)
    | skip
  · rename_i h; cases h
  · rename_i h; cases h; rw [if_pos rfl]

theorem readStr_escape (pr : Char → Bool) {q : Char} (hq : q = '\'' ∨ q = '"') (c : Char) (r : Str) :
    readStr q (escapeCh pr q c ++ r) = (readStr q r).map fun x => (c :: x.1, x.2) := by
  have x2 : c.toNat ≤ 0xFF → readStr q ("\\x".toList ++ hexStr 2 c.toNat ++ r) =
      (readStr q r).map fun x => (c :: x.1, x.2) := by
    intro h
    have := charOf_hex 2 c (by omega)
    simp only [hexStr, List.nil_append, List.cons_append] at this ⊢
    change readStr q ('\\' :: 'x' :: _ :: _ :: r) = _
    rw [readStr, this]; rfl
  have x4 : c.toNat ≤ 0xFFFF → readStr q ("\\u".toList ++ hexStr 4 c.toNat ++ r) =
      (readStr q r).map fun x => (c :: x.1, x.2) := by
    intro h
    have := charOf_hex 4 c (by omega)
    simp only [hexStr, List.nil_append, List.cons_append] at this ⊢
    change readStr q ('\\' :: 'u' :: _ :: _ :: _ :: _ :: r) = _
    rw [readStr, this]; rfl
  have x8 : readStr q ("\\U".toList ++ hexStr 8 c.toNat ++ r) =
      (readStr q r).map fun x => (c :: x.1, x.2) := by
    have hv : c.toNat < 16 ^ 8 := by
      have := c.val.toNat_lt
      have : c.toNat < 4294967296 := this
      omega
    have := charOf_hex 8 c hv
    simp only [hexStr, List.nil_append, List.cons_append] at this ⊢
    change readStr q ('\\' :: 'U' :: _ :: _ :: _ :: _ :: _ :: _ :: _ :: _ :: r) = _
    rw [readStr, this]; rfl
  unfold escapeCh
  by_cases h1 : c = q ∨ c = '\\'
  · rw [if_pos h1]
    have : c = '\\' ∨ c = '\'' ∨ c = '"' := by
      rcases h1 with rfl | rfl
      · exact .inr hq
      · exact .inl rfl
    rcases this with rfl | rfl | rfl <;> rfl
  rw [if_neg h1]
  by_cases h2 : c = '\t'
  · rw [if_pos h2, h2]; rfl
  rw [if_neg h2]
  by_cases h3 : c = '\n'
  · rw [if_pos h3, h3]; rfl
  rw [if_neg h3]
  by_cases h4 : c = '\r'
  · rw [if_pos h4, h4]; rfl
  rw [if_neg h4]
  by_cases h5 : c.toNat < 32 ∨ c.toNat = 127
  · rw [if_pos h5]; exact x2 (by omega)
  rw [if_neg h5]
  by_cases h6 : c.toNat < 127 ∨ pr c = true
  · rw [if_pos h6]
    exact readStr_plain (fun e => h1 (.inr e)) (fun e => h1 (.inl e)) r
  rw [if_neg h6]
  by_cases h7 : c.toNat ≤ 0xFF
  · rw [if_pos h7]; exact x2 h7
  rw [if_neg h7]
  by_cases h8 : c.toNat ≤ 0xFFFF
  · rw [if_pos h8]; exact x4 h8
  rw [if_neg h8]
  exact x8

theorem readStr_escaped (pr : Char → Bool) {q : Char} (hq : q = '\'' ∨ q = '"') (s r : Str) :
    readStr q (s.flatMap (escapeCh pr q) ++ q :: r) = some (s, r) := by
  have hb : q ≠ '\\' := by rcases hq with rfl | rfl <;> decide
  induction s with
  | nil => exact readStr_end hb r
  | cons c s ih =>
    rw [List.flatMap_cons, List.append_assoc, readStr_escape pr hq, ih]
    rfl

theorem quoteOf_or (s : Str) : quoteOf s = '\'' ∨ quoteOf s = '"' := by
  unfold quoteOf; split <;> simp

theorem readField_str (s r : Str) (pr : Char → Bool) :
    readField ((Field.str s).repr pr ++ r) = some (.str s, r) := by
  have h := readStr_escaped pr (quoteOf_or s) s r
  have e : (Field.str s).repr pr ++ r =
      quoteOf s :: (s.flatMap (escapeCh pr (quoteOf s)) ++ quoteOf s :: r) := by
    simp [Field.repr, reprStr]
  rw [e]
  rcases quoteOf_or s with hq | hq <;>
  · rw [hq] at h ⊢
    simp only [readField]
    rw [h]; rfl

/-! ## Dictionaries -/

/-- The numbers are such that they are written out. -/
def Field.Small : Field → Prop
  | .int n => n < 10 ^ 20
  | .float t => t.natAbs < 10 ^ 16
  | _ => True

theorem readField_repr {v : Field} (hv : Field.Small v) {r : Str} (hr : Ends r) (pr : Char → Bool) :
    readField (v.repr pr ++ r) = some (v, r) := by
  cases v with
  | int n => exact readField_int hv hr pr
  | float t => exact readField_float (by simp only [Field.Small] at hv; omega) pr
  | bool b => exact readField_bool b r pr
  | str s => exact readField_str s r pr

theorem readStr_key {k : Str} (hk : PlainKey k) (r : Str) : readStr '\'' (k ++ '\'' :: r) = some (k, r) := by
  obtain ⟨-, hk⟩ := hk
  induction k with
  | nil => exact readStr_end (by decide) r
  | cons c k ih =>
    have hc := hk c (by simp)
    have h1 : c ≠ '\\' := by rintro rfl; revert hc; decide
    have h2 : c ≠ '\'' := by rintro rfl; revert hc; decide
    rw [List.cons_append, readStr_plain h1 h2, ih fun c hc => hk c (by simp [hc])]
    rfl

theorem readEntries_joined (pr : Char → Bool) {sep : Str} (hs : sep = ", ".toList ∨ sep = ",\n ".toList)
    (d : List (Str × Field)) (hd : d ≠ []) (hp : ∀ e ∈ d, PlainKey e.1 ∧ Field.Small e.2) (k : Nat)
    (hk : d.length ≤ k) :
    readEntries k (joined sep (d.map (entryText pr)) ++ ['}']) = some d := by
  induction d generalizing k with
  | nil => exact absurd rfl hd
  | cons e d ih =>
    obtain ⟨k, rfl⟩ : ∃ m, k = m + 1 := ⟨k - 1, by simp at hk; omega⟩
    obtain ⟨h1, h2⟩ := hp e (by simp)
    have entry : ∀ r, entryText pr e ++ r = '\'' :: (e.1 ++ '\'' :: (':' :: ' ' :: (e.2.repr pr ++ r))) := by
      intro r; simp [entryText]
    cases d with
    | nil =>
      simp only [List.map, joined]
      rw [entry]
      simp only [readEntries, readStr_key h1, Option.bind_some, readField_repr h2 ⟨[], .inr rfl⟩]
    | cons e' d =>
      have hr := ih (by simp) (fun x hx => hp x (by simp [hx])) k (by simp at hk ⊢; omega)
      have e1 : joined sep (List.map (entryText pr) (e :: e' :: d)) ++ ['}'] =
          entryText pr e ++ (sep ++ (joined sep (List.map (entryText pr) (e' :: d)) ++ ['}'])) := by
        simp [joined]
      rw [e1, entry]
      rcases hs with rfl | rfl
      · have := readField_repr h2 (r := ", ".toList ++ (joined ", ".toList (List.map (entryText pr) (e' :: d)) ++ ['}']))
          ⟨_, .inl rfl⟩ pr
        simp only [readEntries, readStr_key h1, Option.bind_some, this]
        change Option.map _ (readEntries k (joined ", ".toList (List.map (entryText pr) (e' :: d)) ++ ['}'])) = _
        rw [hr]; rfl
      · have := readField_repr h2 (r := ",\n ".toList ++ (joined ",\n ".toList (List.map (entryText pr) (e' :: d)) ++ ['}']))
          ⟨_, .inl rfl⟩ pr
        simp only [readEntries, readStr_key h1, Option.bind_some, this]
        change Option.map _ (readEntries k (joined ",\n ".toList (List.map (entryText pr) (e' :: d)) ++ ['}'])) = _
        rw [hr]; rfl

theorem joined_length (pr : Char → Bool) (sep : Str) (d : List (Str × Field)) :
    d.length ≤ (joined sep (d.map (entryText pr))).length := by
  induction d with
  | nil => simp [joined]
  | cons e d ih =>
    cases d with
    | nil => simp [joined, entryText]
    | cons e' d =>
      simp only [List.map, joined, List.length_append, List.length_cons] at ih ⊢
      have : 0 < (entryText pr e).length := by simp [entryText]
      omega

/-- A dictionary that is printed can be read back. -/
theorem readDict_pformat (pr : Char → Bool) (d : List (Str × Field)) (hd : d ≠ [])
    (hp : ∀ e ∈ d, PlainKey e.1 ∧ Field.Small e.2) : readDict (pformat pr d) = some d := by
  unfold pformat
  simp only
  split
  · exact readEntries_joined pr (.inl rfl) d hd hp _ (by
      have := joined_length pr ", ".toList d
      rw [List.length_append]; omega)
  · exact readEntries_joined pr (.inr rfl) d hd hp _ (by
      have := joined_length pr ",\n ".toList d
      rw [List.length_append]; omega)

/-! ## Results -/

theorem small_u32 (n : UInt32) : Field.Small (.int n.toNat) := by
  have := n.toNat_lt
  simp only [Field.Small]; omega

/-- **C99** What is printed for the boot information shows each field of the message that was received, under its name
and with its value. -/
theorem C99_boot (pr : Char → Bool) (pb : PbBootInfo) (name : Str) :
    readDict (pformat pr ((PyBootInfo.init pb).dict name)) = some
      [("MajorVersion".toList, .int pb.majorVersion.toNat),
       ("MinorVersion".toList, .int pb.minorVersion.toNat),
       ("BetaVersion".toList, .int pb.betaVersion.toNat), ("DeviceName".toList, .str name)] := by
  refine readDict_pformat pr _ (by simp [PyBootInfo.dict]) ?_
  simp only [PyBootInfo.dict, PyBootInfo.init, List.forall_mem_cons]
  refine ⟨⟨?_, small_u32 _⟩, ⟨?_, small_u32 _⟩,
    ⟨?_, small_u32 _⟩, ⟨?_, trivial⟩, by simp⟩ <;>
    (unfold PlainKey; decide +kernel)

/-- **C99** What is printed for the bypass shows each field of the message that was received, under its name
and with its value. -/
theorem C99_bypass (pr : Char → Bool) (pb : PbBypass) :
    readDict (pformat pr ((PyBypass.init pb).dict)) = some
      [("Factor".toList, .int pb.factor.toNat), ("Level".toList, .int pb.level.toNat),
       ("Correction".toList, .int pb.correction.toNat), ("SummerMode".toList, .bool pb.summerMode)] := by
  refine readDict_pformat pr _ (by simp [PyBypass.dict]) ?_
  simp only [PyBypass.dict, PyBypass.init, List.forall_mem_cons]
  refine ⟨⟨?_, small_u32 _⟩, ⟨?_, small_u32 _⟩,
    ⟨?_, small_u32 _⟩, ⟨?_, trivial⟩, by simp⟩ <;>
    (unfold PlainKey; decide +kernel)

/-- **C99** What is printed for the temperatures shows each field of the message that was received, under its name
and with its value, for temperatures below 10^16 degrees. -/
theorem C99_temps (pr : Char → Bool) (pb : PbTemps)
    (hb : ∀ t ∈ [pb.comfort, pb.outsideAir, pb.supplyAir, pb.insideAir, pb.exhaustAir, pb.geoHeat, pb.reheating, pb.kitchenHood],
      t.natAbs < 10 ^ 16) :
    readDict (pformat pr ((PyTemps.init pb).dict)) = some
      [("Comfort".toList, .float pb.comfort), ("OutsideAir".toList, .float pb.outsideAir),
       ("SupplyAir".toList, .float pb.supplyAir), ("InsideAir".toList, .float pb.insideAir),
       ("ExhaustAir".toList, .float pb.exhaustAir), ("GeoHeat".toList, .float pb.geoHeat),
       ("Reheating".toList, .float pb.reheating), ("KitchenHood".toList, .float pb.kitchenHood)] := by
  refine readDict_pformat pr _ (by simp [PyTemps.dict]) ?_
  simp only [PyTemps.dict, PyTemps.init, List.forall_mem_cons]
  simp only [List.forall_mem_cons] at hb
  obtain ⟨h0, h1, h2, h3, h4, h5, h6, h7, -⟩ := hb
  refine ⟨⟨?_, h0⟩, ⟨?_, h1⟩, ⟨?_, h2⟩, ⟨?_, h3⟩,
    ⟨?_, h4⟩, ⟨?_, h5⟩, ⟨?_, h6⟩, ⟨?_, h7⟩, by simp⟩ <;>
    (unfold PlainKey; decide +kernel)

/-- **C99** What is printed for the fans shows each field of the message that was received, under its name
and with its value. -/
theorem C99_fans (pr : Char → Bool) (pb : PbFans) :
    readDict (pformat pr ((PyFans.init pb).dict)) = some
      [("InPercent".toList, .int pb.inPercent.toNat), ("OutPercent".toList, .int pb.outPercent.toNat),
       ("InSpeed".toList, .int pb.inSpeed.toNat), ("OutSpeed".toList, .int pb.outSpeed.toNat)] := by
  refine readDict_pformat pr _ (by simp [PyFans.dict]) ?_
  simp only [PyFans.dict, PyFans.init, List.forall_mem_cons]
  refine ⟨⟨?_, small_u32 _⟩, ⟨?_, small_u32 _⟩,
    ⟨?_, small_u32 _⟩, ⟨?_, small_u32 _⟩, by simp⟩ <;>
    (unfold PlainKey; decide +kernel)

/-- **C99** What is printed for the profiles shows each field of the message that was received, under its name
and with its value. -/
theorem C99_profiles (pr : Char → Bool) (pb : PbFanProfiles) :
    readDict (pformat pr ((PyFanProfiles.init pb).dict)) = some
      [("OutAway".toList, .int pb.outAway.toNat), ("OutLow".toList, .int pb.outLow.toNat),
       ("OutMid".toList, .int pb.outMid.toNat), ("OutHigh".toList, .int pb.outHigh.toNat),
       ("InFanActive".toList, .bool pb.inFanActive), ("InAway".toList, .int pb.inAway.toNat),
       ("InLow".toList, .int pb.inLow.toNat), ("InMid".toList, .int pb.inMid.toNat),
       ("InHigh".toList, .int pb.inHigh.toNat), ("CurrentOut".toList, .int pb.currentOut.toNat),
       ("CurrentIn".toList, .int pb.currentIn.toNat), ("CurrentMode".toList, .int pb.currentMode.toNat)] := by
  refine readDict_pformat pr _ (by simp [PyFanProfiles.dict]) ?_
  simp only [PyFanProfiles.dict, PyFanProfiles.init, List.forall_mem_cons]
  refine ⟨⟨?_, small_u32 _⟩, ⟨?_, small_u32 _⟩, ⟨?_, small_u32 _⟩, ⟨?_, small_u32 _⟩, ⟨?_, trivial⟩, ⟨?_, small_u32 _⟩,
    ⟨?_, small_u32 _⟩, ⟨?_, small_u32 _⟩, ⟨?_, small_u32 _⟩, ⟨?_, small_u32 _⟩, ⟨?_, small_u32 _⟩, ⟨?_, small_u32 _⟩, by simp⟩ <;>
    (unfold PlainKey; decide +kernel)

/-- **C99** What is printed for the errors shows each field of the message that was received, under its name
and with its value. -/
theorem C99_errors (pr : Char → Bool) (pb : PbErrors) :
    readDict (pformat pr ((PyErrors.init pb).dict)) = some
      [("Filter".toList, .bool pb.filter)] := by
  refine readDict_pformat pr _ (by simp [PyErrors.dict]) ?_
  simp only [PyErrors.dict, PyErrors.init, List.forall_mem_cons]
  refine ⟨⟨?_, trivial⟩, by simp⟩ <;>
    (unfold PlainKey; decide +kernel)

theorem hexStr_length (k n : Nat) : (hexStr k n).length = k := by
  induction k generalizing n with
  | zero => rfl
  | succ k ih => rw [hexStr, List.length_append, ih]; rfl

theorem escape_length (pr : Char → Bool) (q c : Char) : (escapeCh pr q c).length ≤ 4 * (strBytes [c]).length := by
  have e : (strBytes [c]).length = if c.toNat < 0x80 then 1 else if c.toNat < 0x800 then 2 else
      if c.toNat < 0x10000 then 3 else 4 := by
    simp only [strBytes, List.flatMap_cons, List.flatMap_nil, List.append_nil]
    repeat' split
    all_goals rfl
  have l1 : "\\x".toList.length = 2 := by decide
  have l2 : "\\u".toList.length = 2 := by decide
  have l3 : "\\U".toList.length = 2 := by decide
  have l4 : "\\t".toList.length = 2 := by decide
  have l5 : "\\n".toList.length = 2 := by decide
  have l6 : "\\r".toList.length = 2 := by decide
  rw [e]
  unfold escapeCh
  by_cases h : c.toNat < 0x80
  · rw [if_pos h]
    repeat' split
    all_goals simp only [List.length_append, hexStr_length, l1, l2, l3, l4, l5, l6, List.length_cons, List.length_nil]
    all_goals omega
  · rw [if_neg h]
    repeat' split
    all_goals simp only [List.length_append, hexStr_length, l1, l2, l3, l4, l5, l6, List.length_cons, List.length_nil]
    all_goals omega

theorem strBytes_cons (c : Char) (s : Str) : strBytes (c :: s) = strBytes [c] ++ strBytes s := by
  simp [strBytes]

/-- **C99** A device name of up to 10 bytes, as all are that the unit can report (C96), is short enough
not to be broken up: there are 64 characters left on the line of its entry. -/
theorem C99_name_fits (pr : Char → Bool) (name : Str) (h : (strBytes name).length ≤ 10) :
    (reprStr pr name).length ≤ 64 := by
  have : ∀ (q : Char) (s : Str), (s.flatMap (escapeCh pr q)).length ≤ 4 * (strBytes s).length := by
    intro q s
    induction s with
    | nil => simp
    | cons c s ih =>
      rw [List.flatMap_cons, strBytes_cons, List.length_append, List.length_append]
      have := escape_length pr q c
      omega
  have := this (quoteOf name) name
  simp only [reprStr, List.length_cons, List.length_append, List.length_nil]
  omega

/-! ## Lines -/

theorem hexCh_line (d : Nat) (h : d < 16) : hexCh d ≠ '\n' := by
  have : ∀ d : Fin 16, hexCh d.val ≠ '\n' := by decide +kernel
  exact this ⟨d, h⟩

theorem hexStr_line (k n : Nat) : '\n' ∉ hexStr k n := by
  induction k generalizing n with
  | zero => simp [hexStr]
  | succ k ih =>
    simp only [hexStr, List.mem_append, List.mem_singleton, not_or]
    exact ⟨ih _, fun e => hexCh_line _ (Nat.mod_lt n (by decide)) e.symm⟩

theorem escape_line (pr : Char → Bool) {q : Char} (hq : q = '\'' ∨ q = '"') (c : Char) :
    '\n' ∉ escapeCh pr q c := by
  have l : ∀ k, ('\n' ∉ "\\x".toList ++ hexStr k c.toNat) ∧ ('\n' ∉ "\\u".toList ++ hexStr k c.toNat) ∧
      ('\n' ∉ "\\U".toList ++ hexStr k c.toNat) := by
    intro k
    refine ⟨?_, ?_, ?_⟩ <;>
    · rw [List.mem_append, not_or]
      exact ⟨by decide, hexStr_line _ _⟩
  unfold escapeCh
  by_cases h1 : c = q ∨ c = '\\'
  · rw [if_pos h1]
    rcases h1 with rfl | rfl
    · rcases hq with rfl | rfl <;> decide
    · decide
  rw [if_neg h1]
  by_cases h2 : c = '\t'
  · rw [if_pos h2]; decide
  rw [if_neg h2]
  by_cases h3 : c = '\n'
  · rw [if_pos h3]; decide
  rw [if_neg h3]
  repeat' split
  all_goals first
    | decide
    | exact (l _).1
    | exact (l _).2.1
    | exact (l _).2.2
    | (rw [List.mem_singleton]; exact fun e => h3 e.symm)

theorem decText_line (k n : Nat) : '\n' ∉ decText k n := by
  intro h
  exact absurd (decText_dec k n _ h) (by decide)

theorem repr_line (pr : Char → Bool) (v : Field) : '\n' ∉ v.repr pr := by
  have d : ∀ n, '\n' ∉ decText 20 n ++ ".0".toList := by
    intro n
    rw [List.mem_append, not_or]
    exact ⟨decText_line _ _, by decide⟩
  cases v with
  | int n => exact decText_line _ _
  | float t =>
    simp only [Field.repr]
    split
    · rw [List.mem_cons, not_or]
      exact ⟨by decide, d _⟩
    · exact d _
  | bool b => cases b <;> (simp only [Field.repr]; decide)
  | str s =>
    have q := quoteOf_or s
    have qn : '\n' ≠ quoteOf s := by rcases q with h | h <;> (rw [h]; decide)
    simp only [Field.repr, reprStr, List.mem_cons, List.mem_append, List.mem_flatMap, List.not_mem_nil, or_false,
      not_or]
    refine ⟨qn, ?_, qn⟩
    rintro ⟨c, -, hc⟩
    exact escape_line pr q c hc

theorem entry_line (pr : Char → Bool) {e : Str × Field} (h : PlainKey e.1) : '\n' ∉ entryText pr e := by
  simp only [entryText, List.mem_cons, List.mem_append, not_or]
  refine ⟨by decide, ⟨fun hm => ?_, by decide⟩, repr_line pr _⟩
  exact absurd (h.2 _ hm) (by decide)

theorem filter_line {s : Str} (h : '\n' ∉ s) : s.filter (· ≠ '\n') = s := by
  rw [List.filter_eq_self]
  intro c hc
  simp only [decide_eq_true_eq]
  rintro rfl
  exact h hc

theorem joined_lines (l : List Str) (h : ∀ s ∈ l, '\n' ∉ s) :
    (joined ",\n ".toList l).filter (· ≠ '\n') = joined ", ".toList l ∧
    '\n' ∉ joined ", ".toList l ∧ (joined ",\n ".toList l).count '\n' = l.length - 1 := by
  induction l with
  | nil => simp [joined]
  | cons s l ih =>
    have hs := h s (by simp)
    cases l with
    | nil => exact ⟨filter_line hs, hs, List.count_eq_zero.2 hs⟩
    | cons t l =>
      obtain ⟨h1, h2, h3⟩ := ih fun x hx => h x (by simp [hx])
      refine ⟨?_, ?_, ?_⟩
      · simp only [joined] at h1 ⊢
        rw [List.filter_append, List.filter_append, filter_line hs, h1]
        rfl
      · simp only [joined, List.mem_append, not_or] at h2 ⊢
        exact ⟨⟨hs, by decide⟩, h2⟩
      · simp only [joined] at h3 ⊢
        rw [List.count_append, List.count_append, h3, List.count_eq_zero.2 hs]
        have : List.count '\n' ",\n ".toList = 1 := by decide
        rw [this]
        simp only [List.length_cons]
        omega

/-- **C99** The text has one line if it fits in 80 characters without its line ends, else it has one
line for each entry. -/
theorem C99_lines (pr : Char → Bool) (d : List (Str × Field)) (hp : ∀ e ∈ d, PlainKey e.1) :
    let text := pformat pr d
    let flat := text.filter (· ≠ '\n')
    (flat.length ≤ 80 → text = flat) ∧ (80 < flat.length → text.count '\n' = d.length - 1) := by
  obtain ⟨h1, h2, h3⟩ := joined_lines (d.map (entryText pr)) (by
    intro s hs
    obtain ⟨e, he, rfl⟩ := List.mem_map.1 hs
    exact entry_line pr (hp e he))
  have f1 : ('{' :: (joined ", ".toList (d.map (entryText pr)) ++ ['}'])).filter (· ≠ '\n') =
      '{' :: (joined ", ".toList (d.map (entryText pr)) ++ ['}']) := by
    refine filter_line ?_
    simp only [List.mem_cons, List.mem_append, List.not_mem_nil, or_false, not_or]
    exact ⟨by decide, h2, by decide⟩
  have f2 : ('{' :: (joined ",\n ".toList (d.map (entryText pr)) ++ ['}'])).filter (· ≠ '\n') =
      '{' :: (joined ", ".toList (d.map (entryText pr)) ++ ['}']) := by
    rw [List.filter_cons_of_pos (by decide), List.filter_append, h1]
    rfl
  simp only [pformat]
  split
  · rename_i hl
    rw [f1]
    exact ⟨fun _ => rfl, fun h => absurd hl (by omega)⟩
  · rename_i hl
    rw [f2]
    refine ⟨fun h => absurd h hl, fun _ => ?_⟩
    rw [List.count_cons, List.count_append, h3, List.length_map]
    simp

/-- C99: the dictionaries of the results have such names as keys. -/
theorem C99_keys (b : PyBootInfo) (name : Str) (y : PyBypass) (t : PyTemps) (f : PyFans) (p : PyFanProfiles)
    (r : PyErrors) : ∀ d ∈ [b.dict name, y.dict, t.dict, f.dict, p.dict, r.dict], ∀ e ∈ d, PlainKey e.1 := by
  simp only [List.forall_mem_cons, PyBootInfo.dict, PyBypass.dict, PyTemps.dict, PyFans.dict, PyFanProfiles.dict,
    PyErrors.dict]
  repeat' apply And.intro
  all_goals first | (simp; done) | decide +kernel

/-- C99: a dictionary on one line, and one that is too long for that. -/
example : pformat (fun _ => true) ((PyBootInfo.init ⟨3, 60, 32, lit "CA350"⟩).dict "CA350".toList) =
      "{'MajorVersion': 3,\n 'MinorVersion': 60,\n 'BetaVersion': 32,\n 'DeviceName': 'CA350'}".toList ∧
    pformat (fun _ => true) ((PyBootInfo.init ⟨3, 60, 3, lit "CA350"⟩).dict "CA350".toList) =
      "{'MajorVersion': 3, 'MinorVersion': 60, 'BetaVersion': 3, 'DeviceName': 'CA350'}".toList ∧
    pformat (fun _ => true) (PyBypass.init ⟨1, 0, 2, true⟩).dict =
      "{'Factor': 1, 'Level': 0, 'Correction': 2, 'SummerMode': True}".toList ∧
    reprStr (fun _ => true) "it's\n\\".toList = "\"it's\\n\\\\\"".toList := by
  decide +kernel

end Comfo.Props
