import Verif.Spec.Config
import Verif.Props.Http
/-!
# Configuration: C76, C77
-/
namespace Comfo.Props
open Spec

/-! ## One element of a command line -/

theorem yes_parse (v : Str) : v ∈ yes ↔ parseBool v = some true := by
  have hy : v ∈ yes ↔ v = "1".toList ∨ v = "t".toList ∨ v = "T".toList ∨ v = "true".toList ∨
      v = "TRUE".toList ∨ v = "True".toList := by simp [yes]
  rw [hy]
  unfold parseBool
  split
  · rename_i h; exact ⟨fun _ => rfl, fun _ => h⟩
  · rename_i h
    refine ⟨fun h' => absurd h' h, fun h' => ?_⟩
    split at h' <;> cases h'

theorem no_parse (v : Str) : v ∈ no ↔ parseBool v = some false := by
  have hn : v ∈ no ↔ v = "0".toList ∨ v = "f".toList ∨ v = "F".toList ∨ v = "false".toList ∨
      v = "FALSE".toList ∨ v = "False".toList := by simp [no]
  rw [hn]
  unfold parseBool
  split
  · rename_i h
    refine ⟨fun h' => ?_, fun h' => by cases h'⟩
    rcases h with rfl | rfl | rfl | rfl | rfl | rfl <;> exact absurd h' (by decide)
  · split
    · rename_i h; exact ⟨fun _ => rfl, fun _ => h⟩
    · rename_i h; exact ⟨fun h' => absurd h' h, fun h' => by cases h'⟩

theorem bool_parse (v : Str) : (v ∈ yes ∨ v ∈ no) ↔ (parseBool v).isSome = true := by
  rw [yes_parse, no_parse]
  match parseBool v with
  | none => simp
  | some true => simp
  | some false => simp

/-- The flags after an element. -/
def _root_.Spec.Item.apply (f : Flags) : Item → Flags
  | .set k v | .set2 k v => fun k' => if k' = k then
      ⟨if k = .debug then formatBool ((parseBool v).getD false) else v, true⟩ else f k'
  | .debug => fun k' => if k' = .debug then ⟨"true".toList, true⟩ else f k'
  | .word _ => f
  | .test _ => f

theorem set_apply (f : Flags) (k : Key) (v : Str) (h : k = .debug → v ∈ yes ∨ v ∈ no) :
    f.set k v = some (Item.apply f (.set k v)) := by
  cases k with
  | debug =>
    have := (bool_parse v).1 (h rfl)
    match hb : parseBool v with
    | none => rw [hb] at this; cases this
    | some b => simp [Flags.set, Item.apply, hb]
  | _ => rfl

theorem flagName_eq (k : Key) : flagName k = '-' :: '-' :: k.name := by cases k <;> rfl

theorem name_noEq (k : Key) : ∀ c ∈ k.name, c ≠ '=' := by cases k <;> decide

theorem name_head (k : Key) (v : Str) : k.name ++ v ≠ [] ∧
    ¬ ((k.name ++ v).head? = some '-' ∨ (k.name ++ v).head? = some '=') := by
  cases k <;> simp [Key.name]

theorem ofName_name (k : Key) : Key.ofName k.name = some k := by cases k <;> decide

theorem ofName_some {n : Str} {k : Key} (h : Key.ofName n = some k) : n = k.name := by
  unfold Key.ofName at h
  split at h
  · cases h; assumption
  split at h
  · cases h; assumption
  split at h
  · cases h; assumption
  split at h
  · cases h; assumption
  · cases h

theorem cut_at {p : Char → Bool} {a : Str} (ha : ∀ c ∈ a, p c = true) (b : Str)
    (hb : ∀ c, b.head? = some c → p c = false) :
    (a ++ b).takeWhile p = a ∧ (a ++ b).dropWhile p = b := by
  induction a with
  | nil =>
    cases b with
    | nil => simp
    | cons c b => simp [hb c rfl]
  | cons c a ih =>
    obtain ⟨h1, h2⟩ := ih fun c hc => ha c (List.mem_cons_of_mem _ hc)
    simp [ha c (by simp), h1, h2]

/-- `--name=value` and `--name`. -/
theorem parse_long (f : Flags) (k : Key) (v : Str) (args : List Str)
    (hv : v = [] ∨ ∃ x, v = '=' :: x) :
    parseArgs f (('-' :: '-' :: (k.name ++ v)) :: args) =
      match v with
      | _ :: x => (f.set k x).bind fun f => parseArgs f args
      | [] =>
        if k = .debug then (f.set k "true".toList).bind fun f => parseArgs f args
        else
          match args with
          | [] => none
          | v :: args => (f.set k v).bind fun f => parseArgs f args := by
  have h1 := name_head k v
  obtain ⟨h2, h3⟩ := cut_at (p := fun c => decide (c ≠ '=')) (a := k.name) (by simpa using name_noEq k) v
    (by rcases hv with rfl | ⟨x, rfl⟩ <;> simp)
  rw [parseArgs]
  simp only [if_neg h1.1, if_neg h1.2, h2, h3, ofName_name]
  rcases hv with rfl | ⟨x, rfl⟩
  · cases args <;> rfl
  · rfl

theorem parse_word (f : Flags) (w : Str) (args : List Str) (h : w.head? ≠ some '-' ∨ w = ['-']) :
    parseArgs f (w :: args) = parseArgs f args := by
  rcases h with h | rfl
  · match w with
    | [] => simp [parseArgs]
    | c :: w =>
      simp only [List.head?_cons, ne_eq, Option.some.injEq] at h
      rw [parseArgs]
      · intro name he; cases he; exact h rfl
      · intro c shorts he; cases he; exact h rfl
  · rw [parseArgs] <;> simp

theorem parse_item (f : Flags) (i : Item) (h : i.ok) (args : List Str) :
    parseArgs f (i.words ++ args) = parseArgs (i.apply f) args := by
  cases i with
  | set k v =>
    simp only [Item.words, List.nil_append, flagName_eq, List.cons_append]
    rw [parse_long f k _ args (.inr ⟨v, rfl⟩)]
    simp only [set_apply f k v h, Option.bind_some]
  | set2 k v =>
    have hk : k ≠ .debug := h
    have := parse_long f k [] (v :: args) (.inl rfl)
    rw [List.append_nil] at this
    simp only [Item.words, flagName_eq, List.cons_append, List.nil_append]
    rw [this]
    simp only [if_neg hk, set_apply f k v (fun e => absurd e hk), Option.bind_some]
    rfl
  | debug =>
    have := parse_long f .debug [] args (.inl rfl)
    rw [List.append_nil] at this
    exact this
  | word w => exact parse_word f w args h
  | test w =>
    simp only [Item.words, List.singleton_append]
    rfl

theorem parse_rest (f : Flags) (ws : List Str) : parseArgs f ("--".toList :: ws) = some f := rfl

theorem parse_line (f : Flags) (items : List Item) (rest : Option (List Str)) (h : ∀ i ∈ items, i.ok) :
    parseArgs f (commandLine items rest) = some (items.foldl Item.apply f) := by
  induction items generalizing f with
  | nil =>
    cases rest with
    | none => simp [commandLine, parseArgs]
    | some ws => exact parse_rest f ws
  | cons i items ih =>
    have : commandLine (i :: items) rest = i.words ++ commandLine items rest := by
      simp [commandLine]
    rw [this, parse_item f i (h i (by simp)), ih _ fun j hj => h j (List.mem_cons_of_mem _ hj)]
    rfl

/-- What is accepted is a command line. -/
theorem parse_only (n : Nat) : ∀ (f f' : Flags) (args : List Str), args.length ≤ n →
    parseArgs f args = some f' → ∃ items rest, (∀ i ∈ items, i.ok) ∧ args = commandLine items rest := by
  induction n with
  | zero =>
    intro f f' args hl h
    refine ⟨[], none, by simp, ?_⟩
    cases args with
    | nil => rfl
    | cons => simp at hl
  | succ n ih =>
    intro f f' args hl h
    -- one more element
    have more : ∀ (i : Item) (args' : List Str), i.ok → args = i.words ++ args' → args'.length ≤ n →
        ∃ items rest, (∀ i ∈ items, i.ok) ∧ args = commandLine items rest := by
      intro i args' hi he hl'
      subst he
      rw [parse_item f i hi] at h
      obtain ⟨items, rest, h1, rfl⟩ := ih _ _ _ hl' h
      refine ⟨i :: items, rest, ?_, by simp [commandLine]⟩
      intro j hj
      rcases List.mem_cons.1 hj with rfl | hj
      · exact hi
      · exact h1 j hj
    match args, hl, h with
    | [], _, _ => exact ⟨[], none, by simp, rfl⟩
    | s :: args, hl, h =>
      simp only [List.length_cons, Nat.add_le_add_iff_right] at hl
      by_cases hw : s.head? ≠ some '-' ∨ s = ['-']
      · exact more (.word s) args hw rfl hl
      · match s, hw with
        | [], hw => simp at hw
        | [c], hw => simp at hw
        | c :: c' :: s', hw =>
          simp only [List.head?_cons, ne_eq, Option.some.injEq, not_or, Classical.not_not] at hw
          obtain ⟨rfl, -⟩ := hw
          by_cases hc : c' = '-'
          · subst hc
            by_cases hs : s' = []
            · subst hs; exact ⟨[], some args, by simp, rfl⟩
            · -- `--name…`
              have hs' := List.takeWhile_append_dropWhile (p := fun c => decide (c ≠ '=')) (l := s')
              have hk : ∃ k, Key.ofName (s'.takeWhile fun c => decide (c ≠ '=')) = some k := by
                match hk : Key.ofName (s'.takeWhile fun c => decide (c ≠ '=')) with
                | some k => exact ⟨k, rfl⟩
                | none =>
                  rw [parseArgs] at h
                  simp only [if_neg hs, hk] at h
                  split at h <;> cases h
              obtain ⟨k, hk⟩ := hk
              rw [ofName_some hk] at hs'
              generalize hv : (s'.dropWhile fun c => decide (c ≠ '=')) = v at hs'
              have hv' : v = [] ∨ ∃ x, v = '=' :: x := by
                cases v with
                | nil => exact .inl rfl
                | cons c x =>
                  have := List.head?_dropWhile_not (fun c => decide (c ≠ '=')) s'
                  rw [hv] at this
                  exact .inr ⟨x, by simpa using this⟩
              rw [← hs', parse_long f k v args hv'] at h
              subst hs'
              rcases hv' with rfl | ⟨x, rfl⟩
              · simp only [List.append_nil] at h ⊢ more
                by_cases hd : k = .debug
                · subst hd
                  exact more .debug args trivial rfl hl
                · rw [if_neg hd] at h
                  match args, h, hl with
                  | a :: args, h, hl =>
                    refine more (.set2 k a) args hd (by simp [Item.words, flagName_eq]) ?_
                    simp at hl; omega
              · refine more (.set k x) args ?_ (by simp [Item.words, flagName_eq]) hl
                rintro rfl
                rw [bool_parse]
                simp only [Flags.set] at h
                match hb : parseBool x with
                | some b => rfl
                | none => rw [hb] at h; cases h
          · rw [parseArgs] at h
            · split at h
              · rename_i ht
                rw [List.isPrefixOf_iff_prefix] at ht
                obtain ⟨w, hw⟩ := ht
                exact more (.test w) args trivial (by simp [Item.words, ← hw]) hl
              · cases h
            · exact hc

/-! ## The settings -/

theorem apply_says (f : Flags) (i : Item) (k : Key) :
    i.apply f k = match i.says k with
      | some v => ⟨if k = .debug then formatBool ((parseBool v).getD false) else v, true⟩
      | none => f k := by
  cases i with
  | set k' v =>
    by_cases h : k = k'
    · subst h; simp [Item.apply, Item.says]
    · simp [Item.apply, Item.says, h, Ne.symm h]
  | set2 k' v =>
    by_cases h : k = k'
    · subst h; simp [Item.apply, Item.says]
    · simp [Item.apply, Item.says, h, Ne.symm h]
  | debug =>
    by_cases h : k = .debug
    · subst h; rfl
    · simp [Item.apply, Item.says, h]
  | word w => rfl
  | test w => rfl

theorem fold_says (items : List Item) (f : Flags) (k : Key) :
    items.foldl Item.apply f k = match (items.filterMap (Item.says k)).getLast? with
      | some v => ⟨if k = .debug then formatBool ((parseBool v).getD false) else v, true⟩
      | none => f k := by
  induction items generalizing f with
  | nil => rfl
  | cons i items ih =>
    rw [List.foldl_cons, ih, apply_says]
    match hs : Item.says k i with
    | none => rw [List.filterMap_cons_none hs]
    | some v =>
      rw [List.filterMap_cons_some hs]
      match hl : items.filterMap (Item.says k) with
      | [] => rfl
      | x :: xs => rw [List.getLast?_cons_cons]; simp [List.getLast?_cons]

theorem envName_eq (k : Key) : envName k = variableOf k := by cases k <;> rfl

theorem find_fold (items : List Item) (env : Environ) (k : Key) :
    find (items.foldl Item.apply Flags.start) env k =
      match (items.filterMap (Item.says k)).getLast? with
      | some v => if k = .debug then formatBool ((parseBool v).getD false) else v
      | none => chosen items env k := by
  unfold find chosen
  rw [fold_says]
  match hl : (items.filterMap (Item.says k)).getLast? with
  | some v => rfl
  | none =>
    simp only [Flags.start, envName_eq, getEnv]
    match env (variableOf k) with
    | none => cases k <;> rfl
    | some [] => cases k <;> rfl
    | some (c :: v) => rfl

theorem find_chosen (items : List Item) (env : Environ) (k : Key)
    (hk : k ≠ .debug) : find (items.foldl Item.apply Flags.start) env k = chosen items env k := by
  rw [find_fold]
  match hl : (items.filterMap (Item.says k)).getLast? with
  | some v => simp [hk, chosen, hl]
  | none => rfl

theorem findBool_chosen (items : List Item) (env : Environ) :
    findBool (items.foldl Item.apply Flags.start) env .debug = decide (chosen items env .debug ∈ yes) := by
  unfold findBool
  rw [find_fold]
  have key : ∀ v, (parseBool v).getD false = decide (v ∈ yes) := by
    intro v
    rw [Bool.eq_iff_iff, decide_eq_true_iff, yes_parse]
    match parseBool v with
    | none => simp
    | some true => simp
    | some false => simp
  match hl : (items.filterMap (Item.says .debug)).getLast? with
  | none => exact key _
  | some v =>
    have : chosen items env .debug = v := by simp [chosen, hl]
    have h2 : ∀ b : Bool, (parseBool (formatBool b)).getD false = b := by decide +kernel
    rw [this, ← key v]
    exact h2 _

theorem boot_connects (d : Dialer κ ε ω) (f : Flags) (env : Environ) (w : ω) (args : List Str)
    (h : parseArgs Flags.start args = some f) :
    Connects d (find f env .mode) (find f env .target) (find f env .listen) (findBool f env .debug) w
      (boot d args env w) := by
  unfold boot
  rw [h]
  simp only
  unfold connectUnit Connects
  refine ⟨fun hm => ?_, fun hm => ?_, fun h1 h2 => ?_⟩
  · rw [if_pos hm]
    match hd : d (.tcp (find f env .target)) w with
    | ((c, some e), w') => exact ⟨_, _, rfl, rfl, by simp, by simp⟩
    | ((c, none), w') => exact ⟨_, _, rfl, rfl, by simp, by simp⟩
  · rw [if_neg (by rw [hm]; decide), if_pos hm]
    match hd : d (.serial (find f env .target) 9600) w with
    | ((c, some e), w') => exact ⟨_, _, rfl, rfl, by simp, by simp⟩
    | ((c, none), w') => exact ⟨_, _, rfl, rfl, by simp, by simp⟩
  · rw [if_neg h1, if_neg h2]

/-! ## C76 -/

/-- **C76** Every command line: the program connects to the unit as the settings say, which are the
last ones given on the command line, else those of the environment, else the defaults. -/
theorem C76_settings (d : Dialer κ ε ω) (items : List Item) (rest : Option (List Str))
    (hok : ∀ i ∈ items, i.ok) (env : Environ) (w : ω) :
    Connects d (chosen items env .mode) (chosen items env .target) (chosen items env .listen)
      (decide (chosen items env .debug ∈ yes)) w (boot d (commandLine items rest) env w) := by
  have := boot_connects d _ env w _ (parse_line Flags.start items rest hok)
  rwa [find_chosen items env .mode (by decide), find_chosen items env .target (by decide),
    find_chosen items env .listen (by decide), findBool_chosen items] at this

/-- **C76** Anything else that is given as a command line is refused, and nothing is touched. -/
theorem C76_refused (d : Dialer κ ε ω) (args : List Str) (env : Environ) (w : ω)
    (h : ¬ ∃ items rest, (∀ i ∈ items, Item.ok i) ∧ args = commandLine items rest) :
    boot d args env w = (.usage, w) := by
  unfold boot
  match hp : parseArgs Flags.start args with
  | none => rfl
  | some f => exact absurd (parse_only _ _ _ args (Nat.le_refl _) hp) h

/-- **C76** No other environment variable has an effect. -/
theorem C76_environment (d : Dialer κ ε ω) (args : List Str) (env env' : Environ) (w : ω)
    (h : ∀ k, env (variableOf k) = env' (variableOf k)) : boot d args env w = boot d args env' w := by
  have hf : ∀ f k, find f env k = find f env' k := by
    intro f k; simp [find, getEnv, envName_eq, h]
  simp [boot, findBool, hf]

/-- A command line of every kind, and what it says. -/
def sampleItems : List Item :=
  [.set .mode "serial".toList, .word "x".toList, .set2 .mode "tcp".toList, .debug,
    .set .target "--odd=1".toList, .set2 .listen "--".toList, .test "v".toList, .set .debug "F".toList]

/-- It is `--mode=serial x --mode tcp --debug --target=--odd=1 --listen -- -test.v --debug=F -- --mode=serial`. -/
example : (commandLine sampleItems (some ["--mode=serial".toList])).map String.ofList =
    ["--mode=serial", "x", "--mode", "tcp", "--debug", "--target=--odd=1", "--listen", "--", "-test.v",
      "--debug=F", "--", "--mode=serial"] := by decide +kernel

/-- The environment of the example. -/
def sampleEnv : Environ := fun n =>
  if n = "COMFO_DEBUG".toList then some "1".toList
  else if n = "COMFO_TARGET".toList then some "host:1".toList else none

example : (∀ i ∈ sampleItems, i.ok) ∧
    boot portDialer (commandLine sampleItems (some ["--mode=serial".toList])) sampleEnv 0 =
      (.serving (some 7) "--".toList false, 1) := by
  refine ⟨?_, by decide +kernel⟩
  simp [sampleItems, Item.ok, no]

/-- The environment, and the defaults. -/
example : boot portDialer ["--mode".toList, "tcp".toList] sampleEnv 0 =
    (.serving (some 7) "[::]:3094".toList true, 1) := by decide +kernel

/-- Refused command lines. -/
example : ∀ args ∈ [["--help"], ["-h"], ["--mode"], ["--debug=maybe"], ["--Mode=tcp"], ["---mode=tcp"],
      ["--mod=tcp"], ["--mode=tcp", "-d"], ["--=x"]],
    boot portDialer (args.map String.toList) sampleEnv 0 = (.usage, 0) := by decide +kernel

/-! ## C77 -/

/-- The environment that `systemd/comfo.service:8` gives to the program. -/
def unitFile (device : Str) : Environ := fun n =>
  if n = "COMFO_USB_DEVICE".toList then some device else none

/-- Remembers what was opened. -/
def recorder : Dialer Unit Unit (List Dial) := fun x l => ((some (), none), l ++ [x])

/-- **C77** (violated) Another device in `comfo.service` changes nothing: the server reads
`COMFO_TARGET`, and opens `/dev/ttyUSB0`. -/
theorem C77_violated : ∃ device : Str, device ≠ "/dev/ttyUSB0".toList ∧
    (boot recorder [] (unitFile device) []).2 = [.serial "/dev/ttyUSB0".toList 9600] :=
  ⟨"/dev/ttyS0".toList, by decide, by decide +kernel⟩

/-- **C77** (violated) In fact no device that is written there is ever looked at. -/
theorem C77_ignored_violated (d : Dialer κ ε ω) (device : Str) (w : ω) :
    boot d [] (unitFile device) w = boot d [] (fun _ => none) w ∧
      (boot d [] (unitFile device) w).2 = (d (.serial "/dev/ttyUSB0".toList 9600) w).2 := by
  have h := C76_environment d [] (unitFile device) (fun _ => none) w
    (fun k => by cases k <;> exact if_neg (by decide))
  refine ⟨h, h ▸ ?_⟩
  obtain ⟨o, w', h1, h2, -⟩ := (C76_settings d [] none (fun i hi => by cases hi) (fun _ => none) w).2.1 rfl
  rw [show d (.serial "/dev/ttyUSB0".toList 9600) w = (o, w') from h1]
  exact h2

/-- **C77** (partial) Under the name that the program looks at, it is opened. Missing: the name in
`comfo.service`, see `C77_violated`. -/
theorem C77_target_partial (d : Dialer κ ε ω) (c : Char) (device : Str) (env : Environ) (w : ω)
    (ht : env "COMFO_TARGET".toList = some (c :: device)) (hm : env "COMFO_MODE".toList = none) :
    (boot d [] env w).2 = (d (.serial (c :: device) 9600) w).2 := by
  have hmode : chosen [] env .mode = "serial".toList := by
    unfold chosen
    rw [show variableOf .mode = "COMFO_MODE".toList from rfl, hm]
    rfl
  have htarget : chosen [] env .target = c :: device := by
    unfold chosen
    rw [show variableOf .target = "COMFO_TARGET".toList from rfl, ht]
    rfl
  have hb := (C76_settings d [] none (fun i hi => by cases hi) env w).2.1
  rw [show commandLine [] none = [] from rfl, hmode, htarget] at hb
  obtain ⟨o, w', h1, h2, -⟩ := hb rfl
  rw [h1]
  exact h2

example : (boot recorder [] (fun n => if n = "COMFO_TARGET".toList then some "/dev/ttyS0".toList else none)
    []).2 = [.serial "/dev/ttyS0".toList 9600] := by decide +kernel

end Comfo.Props
