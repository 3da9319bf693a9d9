import Verif.Props.Json
/-!
# C89, C90: answers and errors in JSON, and the services with the JSON libraries of Go
-/
namespace Comfo.Props
open Spec Comfo.Pb Comfo.Twirp Comfo.Json

/-! ## Answers -/

theorem answer_read {m : Method} {r : Resp} (hs : Success m r) (hu : r.marshals = true)
    (ht : ExactTemps r) {body : Bytes} (hb : IsBody (answerJson r) body) :
    jsonAnswer m body = some (answerFields r) := by
  obtain ⟨h1, h2, h3⟩ := answer_msg hs
  obtain ⟨b, -, -, h4⟩ := written true true _ _ h1 (answer_good hu ht) (answer_nodup r).1
    (answer_nodup r).2
  rw [kept_all, h2, h3] at h4
  unfold jsonAnswer
  rw [decode_iff.2 hb]
  exact h4

theorem answer_text (sp : Bool) {m : Method} {r : Resp} (hs : Success m r) (hu : r.marshals = true)
    (ht : ExactTemps r) :
    ∃ body, msgText sp true (goOutput m) (answerFields r) = some body ∧
      Text 10000 (.obj (answerJson r)) body := by
  obtain ⟨h1, h2, h3⟩ := answer_msg hs
  obtain ⟨b, h4, h5, -⟩ := written sp true _ _ h1 (answer_good hu ht) (answer_nodup r).1
    (answer_nodup r).2
  rw [kept_all, h3] at h5
  rw [h2] at h4
  exact ⟨b, h4, h5⟩

theorem request_text (sp : Bool) {m : Method} {c : Call} (hm : c.method = some m) (ha : ArgFits c) :
    ∃ l body, msgText sp false (goInput m) (goArg c) = some body ∧ Text 10000 (.obj l) body ∧
      Asks m l c := by
  obtain ⟨h1, h2⟩ := call_items hm
  obtain ⟨b, h4, h5, h6⟩ := written sp false _ _ h1 (call_good ha) (call_nodup c).1 (call_nodup c).2
  rw [h2] at h4 h6
  refine ⟨_, b, h4, h5, msg_asks.1 ?_⟩
  rw [h6, Option.map_some, call_back hm]

/-! ## Errors -/

theorem before_irrefl : ∀ a : Bytes, before a a = false
  | [] => rfl
  | x :: a => by simp [before, before_irrefl a]

theorem before_trans : ∀ {a b c : Bytes}, before a b = true → before b c = true → before a c = true
  | [], [], _, h, _ => by cases h
  | [], _ :: _, [], _, h => by cases h
  | [], _ :: _, _ :: _, _, _ => rfl
  | _ :: _, [], _, h, _ => by cases h
  | _ :: _, _ :: _, [], _, h => by cases h
  | x :: a, y :: b, z :: c, h1, h2 => by
    simp only [before, Bool.or_eq_true, decide_eq_true_eq, Bool.and_eq_true] at *
    rcases h1 with h1 | ⟨rfl, h1⟩ <;> rcases h2 with h2 | ⟨rfl, h2⟩
    · exact .inl (UInt8.lt_trans h1 h2)
    · exact .inl h1
    · exact .inl h2
    · exact .inr ⟨rfl, before_trans h1 h2⟩

theorem before_total : ∀ {a b : Bytes}, a ≠ b → before a b = false → before b a = true
  | [], [], h, _ => absurd rfl h
  | [], _ :: _, _, h => by cases h
  | _ :: _, [], _, _ => rfl
  | x :: a, y :: b, hne, h => by
    simp only [before, Bool.or_eq_false_iff, decide_eq_false_iff_not, Bool.and_eq_false_iff,
      Bool.or_eq_true, decide_eq_true_eq, Bool.and_eq_true] at *
    by_cases hxy : x = y
    · subst hxy
      refine .inr ⟨rfl, before_total (fun e => hne (by rw [e])) ?_⟩
      rcases h.2 with h | h
      · exact absurd rfl h
      · exact h
    · exact .inl (UInt8.lt_of_le_of_ne (UInt8.not_lt.1 h.1) (Ne.symm hxy))

/-- Every key comes before the later ones. -/
def Sorted (l : List (Bytes × Bytes)) : Prop := l.Pairwise fun a b => before a.1 b.1 = true

theorem insert_mem {k v : Bytes} : ∀ {l : List (Bytes × Bytes)} {e}, e ∈ insertKey k v l →
    e = (k, v) ∨ e ∈ l
  | [], e, h => by
    simp only [insertKey, List.mem_singleton] at h
    exact .inl h
  | x :: l, e, h => by
    unfold insertKey at h
    split at h
    · rcases List.mem_cons.1 h with h | h
      · exact .inl h
      · exact .inr (List.mem_cons_of_mem _ h)
    · split at h
      · rcases List.mem_cons.1 h with h | h
        · exact .inl h
        · exact .inr h
      · rcases List.mem_cons.1 h with h | h
        · exact .inr (h ▸ List.mem_cons_self ..)
        · rcases insert_mem h with h | h
          · exact .inl h
          · exact .inr (List.mem_cons_of_mem _ h)

theorem insert_sorted {k v : Bytes} : ∀ {l : List (Bytes × Bytes)}, Sorted l → Sorted (insertKey k v l)
  | [], _ => List.pairwise_singleton ..
  | x :: l, h => by
    unfold Sorted at h
    rw [List.pairwise_cons] at h
    unfold insertKey
    split
    · rename_i e
      exact List.pairwise_cons.2 ⟨fun b hb => by rw [e]; exact h.1 b hb, h.2⟩
    · split
      · rename_i hb
        refine List.pairwise_cons.2 ⟨fun b hb' => ?_, List.pairwise_cons.2 h⟩
        rcases List.mem_cons.1 hb' with rfl | hb'
        · exact hb
        · exact before_trans hb (h.1 b hb')
      · rename_i hne hb
        refine List.pairwise_cons.2 ⟨fun b hb' => ?_, insert_sorted h.2⟩
        rcases insert_mem hb' with rfl | hb'
        · exact before_total hne (by simpa using hb)
        · exact h.1 b hb'

theorem sorted_nodup {l : List (Bytes × Bytes)} (h : Sorted l) : (l.map (·.1)).Nodup := by
  rw [List.Nodup, List.pairwise_map]
  refine h.imp fun {a b} hab e => ?_
  rw [e, before_irrefl] at hab
  cases hab

theorem insert_lookup {k v : Bytes} : ∀ {l : List (Bytes × Bytes)} {k' : Bytes},
    (insertKey k v l).lookup k' = if k' = k then some v else l.lookup k'
  | [], k' => by
    rw [insertKey, List.lookup_cons, List.lookup_nil]
    by_cases h : k' = k
    · simp [h]
    · rw [if_neg h, show (k' == k) = false by simpa using h]
  | x :: l, k' => by
    unfold insertKey
    split
    · rename_i e
      rw [List.lookup_cons, List.lookup_cons]
      by_cases h : k' = k
      · simp [h]
      · rw [if_neg h, show (k' == k) = false by simpa using h,
          show (k' == x.1) = false by rw [← e]; simpa using h]
    · rename_i e
      split
      · simp only [List.lookup_cons]
        by_cases h : k' = k
        · simp [h]
        · rw [if_neg h, show (k' == k) = false by simpa using h]
      · rw [List.lookup_cons, insert_lookup, List.lookup_cons]
        by_cases h : k' = k
        · subst h
          rw [show (k' == x.1) = false by simpa using e]
        · rw [if_neg h, if_neg h]

theorem sortedMap_sorted : ∀ l : List (Bytes × Bytes), Sorted (sortedMap l)
  | [] => List.Pairwise.nil
  | _ :: l => insert_sorted (sortedMap_sorted l)

theorem sortedMap_mem : ∀ {l : List (Bytes × Bytes)} {e}, e ∈ sortedMap l → e ∈ l
  | [], _, h => by cases h
  | x :: l, e, h => by
    rcases insert_mem (l := sortedMap l) h with rfl | h
    · exact List.mem_cons_self ..
    · exact List.mem_cons_of_mem _ (sortedMap_mem h)

theorem sortedMap_lookup : ∀ {l : List (Bytes × Bytes)} {k : Bytes}, (sortedMap l).lookup k = l.lookup k
  | [], _ => rfl
  | x :: l, k => by
    show (insertKey x.1 x.2 (sortedMap l)).lookup k = _
    rw [insert_lookup, sortedMap_lookup, List.lookup_cons]
    by_cases h : k = x.1
    · simp [h]
    · rw [if_neg h, show (k == x.1) = false by simpa using h]

theorem ascii_html : StrText (lit "code") (htmlQuote (lit "code")) ∧
    StrText (lit "msg") (htmlQuote (lit "msg")) ∧ StrText (lit "meta") (htmlQuote (lit "meta")) :=
  ⟨html_text (by decide), html_text (by decide), html_text (by decide)⟩

theorem errText_text {t : TwerrJson} (h : IsTextJson t) :
    ∃ l, Text 10000 (.obj l) (errText t) ∧ IsErrorJson t l := by
  obtain ⟨hc, hm, hk⟩ := h
  have e1 : lit "{\"code\":" = 123 :: (htmlQuote (lit "code") ++ [58]) := by decide
  have e2 : lit ",\"msg\":" = 44 :: (htmlQuote (lit "msg") ++ [58]) := by decide
  have e3 : lit ",\"meta\":{" = 44 :: (htmlQuote (lit "meta") ++ [58, 123]) := by decide
  have mc : MemberText (Text 9999) (lit "code", .str t.code) (htmlQuote (lit "code") ++ 58 :: htmlQuote t.code) :=
    ⟨_, _, rfl, ascii_html.1, scalar_is_text (.str (html_text hc))⟩
  have mm : MemberText (Text 9999) (lit "msg", .str t.msg) (htmlQuote (lit "msg") ++ 58 :: htmlQuote t.msg) :=
    ⟨_, _, rfl, ascii_html.2.1, scalar_is_text (.str (html_text hm))⟩
  by_cases hm0 : t.metas = []
  · refine ⟨_, ?_, [], rfl, .inl ⟨hm0, rfl⟩⟩
    have := object_text (sp := false) (kv := Prod.fst) (tx := Prod.snd)
      (l := [((lit "code", Json.str t.code), htmlQuote (lit "code") ++ 58 :: htmlQuote t.code),
        ((lit "msg", Json.str t.msg), htmlQuote (lit "msg") ++ 58 :: htmlQuote t.msg)])
      (forall_cons mc <| forall_cons mm fun _ h => absurd h List.not_mem_nil)
    unfold errText
    rw [if_pos hm0, e1, e2]
    simpa [joinText] using this
  · have mo : Text 9999 (.obj ((sortedMap t.metas).map fun kv => (kv.1, .str kv.2)))
        (123 :: joinText false ((sortedMap t.metas).map fun kv => htmlQuote kv.1 ++ 58 :: htmlQuote kv.2) ++
          [125]) :=
      object_text (d := 9998) fun kv hkv => ⟨_, _, rfl, html_text (hk kv (sortedMap_mem hkv)).1,
        scalar_is_text (.str (html_text (hk kv (sortedMap_mem hkv)).2))⟩
    have mt : MemberText (Text 9999) (lit "meta", .obj ((sortedMap t.metas).map fun kv => (kv.1, .str kv.2)))
        (htmlQuote (lit "meta") ++ 58 :: (123 :: joinText false ((sortedMap t.metas).map fun kv =>
          htmlQuote kv.1 ++ 58 :: htmlQuote kv.2) ++ [125])) := ⟨_, _, rfl, ascii_html.2.2, mo⟩
    refine ⟨_, ?_, _, rfl, .inr ⟨sortedMap t.metas, rfl, sorted_nodup (sortedMap_sorted _),
      fun k => sortedMap_lookup⟩⟩
    have := object_text (sp := false) (kv := Prod.fst) (tx := Prod.snd)
      (l := [((lit "code", Json.str t.code), htmlQuote (lit "code") ++ 58 :: htmlQuote t.code),
        ((lit "msg", Json.str t.msg), htmlQuote (lit "msg") ++ 58 :: htmlQuote t.msg), (_, _)])
      (forall_cons mc <| forall_cons mm <| forall_cons mt fun _ h => absurd h List.not_mem_nil)
    unfold errText
    rw [if_neg hm0, e1, e2, e3]
    simpa [joinText] using this

theorem metaOf_lookup : ∀ {kvs acc : List (Bytes × Bytes)}, (kvs.map (·.1)).Nodup →
    ∃ ms, metaOf acc (kvs.map fun kv => (kv.1, .str kv.2)) = some ms ∧
      ∀ k, ms.lookup k = (kvs.lookup k).or (acc.lookup k)
  | [], acc, _ => ⟨acc, rfl, fun k => by simp⟩
  | (k, v) :: kvs, acc, h => by
    rw [List.map_cons, List.nodup_cons] at h
    obtain ⟨ms, h1, h2⟩ := metaOf_lookup (acc := (k, v) :: acc) h.2
    refine ⟨ms, h1, fun k' => ?_⟩
    rw [h2, List.lookup_cons, List.lookup_cons]
    by_cases hk : k' = k
    · subst hk
      have : kvs.lookup k' = none := by
        rw [List.lookup_eq_none_iff]
        intro p hp
        have : k' ≠ p.1 := fun e => h.1 (List.mem_map.2 ⟨p, hp, e.symm⟩)
        simpa using this
      rw [this]
      simp
    · rw [show (k' == k) = false by simpa using hk]

theorem error_read {t : TwerrJson} {l : List (Bytes × Json)} (h : IsErrorJson t l) {body : Bytes}
    (hb : IsBody l body) :
    ∃ t', errOf body = some t' ∧ t'.code = t.code ∧ t'.msg = t.msg ∧
      ∀ k, t'.metas.lookup k = t.metas.lookup k := by
  unfold errOf
  rw [decode_lenient (decode_iff.2 hb)]
  simp only
  have c1 : (lit "code").map lower = lit "code" := by decide
  have c2 : (lit "msg").map lower = lit "msg" := by decide
  have c3 : (lit "meta").map lower = lit "meta" := by decide
  have n1 : lit "msg" ≠ lit "code" := by decide
  have n2 : lit "meta" ≠ lit "code" := by decide
  have n3 : lit "meta" ≠ lit "msg" := by decide
  obtain ⟨ms, rfl, ⟨hm, rfl⟩ | ⟨kvs, rfl, hn, hl⟩⟩ := h
  · simp only [List.append_nil, errMembers, c1, c2, n1, if_true, if_false, strOr]
    exact ⟨_, rfl, rfl, rfl, by rw [hm]; exact fun _ => rfl⟩
  · obtain ⟨ms, h1, h2⟩ := metaOf_lookup (acc := []) hn
    simp only [List.cons_append, List.nil_append, errMembers, c1, c2, c3, n1, n2, n3, if_true, if_false,
      strOr, h1]
    exact ⟨_, rfl, rfl, rfl, fun k => by rw [h2, hl]; simp⟩

attribute [local irreducible] msgText jsonAnswer in
/-- The libraries lose nothing. -/
theorem goJson_lawful (a b : Bool) : Lawful (goJson a b) jsonRequest where
  err t ht := by
    obtain ⟨l, h1, h2⟩ := errText_text ht
    obtain ⟨t', h3, h4⟩ := error_read h2 (text_body h1)
    exact ⟨_, t', rfl, h3, h4⟩
  req c m hm ha := by
    obtain ⟨l, body, h1, h2, h3⟩ := request_text a hm ha
    exact ⟨body, h1, C89_request.2 ⟨l, text_body h2, h3⟩⟩
  res m r s hs hu hl ht := by
    have hm : Success m r := by
      cases m <;> rcases r with a | a | a | a | a | a | a | a | a | a <;>
        (try cases a) <;> first | trivial | cases hs
    obtain ⟨body, h1, h2⟩ := answer_text b hm hu ht
    have e : s = answerFields r := by
      have := (go_answer m r hm hu hl).1
      rw [hs] at this
      exact Option.some.inj this
    subst e
    exact ⟨body, h1, answer_read hm hu ht (text_body h2)⟩

/-- In the Go descriptor, the name of every field of every message is also its name in JSON
(`name` and `json_name`, fields 1 and 10 of `FieldDescriptorProto`). -/
theorem json_names : ((do
    let file ← fieldsOf goDesc
    let fields ← allOf (fun m => (fieldsOf m).map (subFields 2)) (subFields 4 file)
    let names ← allOf (fun f => (fieldsOf f).map fun rs => (strField 1 rs, strField 10 rs)) fields.flatten
    return names.length = 61 && names.all fun n => n.1.isSome && n.1 = n.2 : Option Bool)) = some true := by
  decide +kernel

/-! ## C89 -/

/-- **C89** Every JSON request either is an object that asks for a call, and then runs this call and
nothing else, or is refused without any effect. -/
theorem C89_body (clean : Str → Str) (cv : FloatConv) (r : HttpReq) (m : Method)
    (h : MeantFor clean m .json r) :
    (∃ l c, IsBody l r.body ∧ Asks m l c ∧
      serve clean (pbCodec jsonRequest jsonRequest_method) cv r = (c.prog cv).bind fun a => .ret a.http) ∨
    ((¬ ∃ l c, IsBody l r.body ∧ Asks m l c) ∧
      serve clean (pbCodec jsonRequest jsonRequest_method) cv r = .ret .malformed) := by
  rcases C53_handler clean (pbCodec jsonRequest jsonRequest_method) cv r m .json h with
    ⟨h1, h2⟩ | ⟨c, h1, -, h2⟩
  · right
    refine ⟨?_, h2⟩
    rintro ⟨l, c, hb, hc⟩
    have h3 : jsonRequest m r.body = none := h1
    rw [C89_request.2 ⟨l, hb, hc⟩] at h3
    cases h3
  · obtain ⟨l, hb, hc⟩ := C89_request.1 h1
    exact .inl ⟨l, c, hb, hc, h2⟩

/-- **C89** What a body asks for is unique. -/
theorem C89_unique {m : Method} {body : Bytes} {l l' : List (Bytes × Json)} {c c' : Call}
    (h : IsBody l body) (h' : IsBody l' body) (ha : Asks m l c) (ha' : Asks m l' c') :
    l = l' ∧ c = c' := by
  have h1 := decode_iff.2 h
  rw [decode_iff.2 h'] at h1
  cases h1
  have h2 := msg_asks.2 ha
  rw [msg_asks.2 ha'] at h2
  cases h2
  exact ⟨rfl, rfl⟩

attribute [local irreducible] msgText in
/-- **C89** A successful answer is sent as one JSON object with exactly its fields, all of them. -/
theorem C89_answer (a b : Bool) (W : Wording) (q : HttpReq) {m : Method} {r : Resp}
    (hs : Success m r) (hu : r.marshals = true) (ht : ExactTemps r) :
    ∃ body, respond (goJson a b) W .json m q r.http = ⟨200, [], .ok body⟩ ∧
      Text 10000 (.obj (answerJson r)) body := by
  obtain ⟨body, h1, h2⟩ := answer_text b hs hu ht
  refine ⟨body, ?_, h2⟩
  have hl : r.error? = none ∧ goStruct m r = some (answerFields r) := by
    cases m <;> rcases r with a | a | a | a | a | a | a | a | a | a <;> (try cases a) <;> first
      | exact False.elim hs
      | exact ⟨rfl, rfl⟩
  have hr : r.http = .answer r := by
    unfold Resp.http
    rw [if_pos hu]
  rw [hr]
  unfold respond
  simp only [hl.1, hl.2]
  rw [show encAnswer (goJson a b) .json m (answerFields r) = some body from h1]

attribute [local irreducible] jsonAnswer in
/-- **C89** A Go client reads this answer from every text of this object, however it is written. -/
theorem C89_read (a b : Bool) {m : Method} {r : Resp} (hs : Success m r) (hu : r.marshals = true)
    (ht : ExactTemps r) {body : Bytes} (hb : IsBody (answerJson r) body) :
    Decodes (goJson a b) .json m body (answerFields r) := answer_read hs hu ht hb

/-- **C89** An error is sent as one JSON object with its code, its text and its metadata, and a Go
client reads the same from every text of this object. -/
theorem C89_error (a b : Bool) (e : TwErr) (h : IsText e) (hl : e.msg.length ≤ 1000000) :
    (∃ l, Text 10000 (.obj l) (marshalErrorToJSON (goJson a b) e) ∧
      IsErrorJson ⟨e.code.name, e.msg, e.metas⟩ l) ∧
    ∀ l body, IsErrorJson ⟨e.code.name, e.msg, e.metas⟩ l → IsBody l body →
      ∃ t, (goJson a b).decErr body = some t ∧ t.code = e.code.name ∧ t.msg = e.msg ∧
        ∀ k, t.metas.lookup k = e.metas.lookup k := by
  constructor
  · have hm : (if e.msg.length > 1000000 then e.msg.take 1000000 else e.msg) = e.msg :=
      if_neg (by omega)
    unfold marshalErrorToJSON
    simp only [hm]
    exact errText_text ⟨(code_ok e.code).2.1, h.1, h.2⟩
  · intro l body h1 h2
    exact error_read h1 h2

/-- **C78** with the JSON libraries: in every execution, a client whose call was answered with
success returns that answer. -/
theorem C78_json (a b : Bool) (clean : Str → Str) (hc : ∀ m, clean (routeOf m) = routeOf m)
    (base : Url) (hp : base.path = []) (f : Fmt) {S : Setup σ} {w : World σ} {s : Sys σ}
    (h : Reachable S (Sys.initial w) s) {i : Nat} {c : Call} {r : Resp} {m : Method}
    (hA : Answered s i c r) (hm : c.method = some m) (hok : Success m r) (ha : ArgFits c)
    (h0 : (getAnswer .boot w.boot.val).marshals = true ∧ ShortName (getAnswer .boot w.boot.val) ∧
      ExactTemps (getAnswer .temps w.temps.val))
    (hu : c = .getBoot → ∀ t q, (t, Act.got true (q, none)) ∈ s.sh.trace → q.command = 0x68 →
      validUtf8 (q.data.drop 3) = true) :
    ∃ snt, Carries clean (pbCodec jsonRequest jsonRequest_method) S.cv base f m c snt ∧
      ∀ (ω : Type) (n : Net ω) (w : ω) (W : Wording), Undisturbed n →
        (n.exchange snt w).1 = .ok (respond (goJson a b) W f m snt.req r.http) →
        (goClient (goJson a b) n f base m (goArg c) w).1 = .ok (answerFields r) :=
  C78_delivered (goJson a b) jsonRequest jsonRequest_method (goJson_lawful a b) clean hc base hp f h hA
    hm hok ha h0 hu

/-- **C79** with the JSON libraries: errors of a handler reach the caller. -/
theorem C79_json (a b : Bool) (clean : Str → Str) (hc : ∀ m, clean (routeOf m) = routeOf m)
    (cv : FloatConv) (base : Url) (hp : base.path = []) (f : Fmt) (c : Call) (m : Method)
    (hm : c.method = some m) (ha : ArgFits c) :
    ∃ snt, Carries clean (pbCodec jsonRequest jsonRequest_method) cv base f m c snt ∧
      ∀ (ω : Type) (n : Net ω) (w : ω) (W : Wording) (r : Resp) (e : Comfo.Twirp) (res : HttpRes),
        Undisturbed n → r.error? = some e → TextOf W e →
        res = respond (goJson a b) W f m snt.req r.http → (n.exchange snt w).1 = .ok res →
        ∃ e', (goClient (goJson a b) n f base m (goArg c) w).1 = .error e' ∧ ErrorFor W e e' ∧
          documentedStatus e'.code = some res.status :=
  C79_error (goJson a b) jsonRequest jsonRequest_method (goJson_lawful a b) clean hc cv base hp f c m hm
    ha

/-! ## C90 -/

theorem member_unique {l : List (Bytes × Json)} {n : String} {x y : Option Json} (h : Member l n x)
    (h' : Member l n y) : x = y := by
  have key : ∀ {x}, Member l n x → x = match l.filter fun kv => kv.1 = lit n with
      | [(_, .null)] => none
      | [(_, v)] => some v
      | _ => none := by
    intro x h
    cases h with
    | absent h => rw [filter_none.2 h]
    | null h1 h2 => rw [filter_one.2 ⟨_, _, h1, rfl, h2⟩]
    | there h1 h2 h3 =>
      rw [filter_one.2 ⟨_, _, h1, rfl, h2⟩]
      split
      · rename_i heq; cases heq; exact absurd rfl h3
      · rename_i heq; cases heq; rfl
      · rename_i h; exact (h _ _ rfl).elim
  rw [key h, key h']

/-- **C90** What a name stands for: the cache of that name, and `BootInfo` if there is none. -/
theorem C90_flush_partial (clean : Str → Str) (cv : FloatConv) (r : HttpReq)
    (l : List (Bytes × Json)) (s : Bytes) (h : MeantFor clean .flushCache .json r)
    (hb : IsBody l r.body) (hs : Member l "Cache" (some (.str s))) :
    (∃ t, (s, t) ∈ cacheNames ∧ serve clean (pbCodec jsonRequest jsonRequest_method) cv r =
      ((Call.flush t).prog cv).bind fun a => .ret a.http) ∨
    ((∀ t, (s, t) ∉ cacheNames) ∧ serve clean (pbCodec jsonRequest jsonRequest_method) cv r =
      ((Call.flush 0).prog cv).bind fun a => .ret a.http) := by
  have run : ∀ c, Asks .flushCache l c → serve clean (pbCodec jsonRequest jsonRequest_method) cv r =
      (c.prog cv).bind fun a => .ret a.http := by
    intro c hc
    rcases C89_body clean cv r .flushCache h with ⟨l', c', h1, h2, h3⟩ | ⟨h1, -⟩
    · rw [(C89_unique hb h1 hc h2).2]
      exact h3
    · exact absurd ⟨l, c, hb, hc⟩ h1
  by_cases hk : ∃ t, (s, t) ∈ cacheNames
  · obtain ⟨t, ht⟩ := hk
    exact .inl ⟨t, ht, run _ ⟨t, rfl, .inr ⟨_, hs, .cache (.name ht)⟩⟩⟩
  · have hk' : ∀ t, (s, t) ∉ cacheNames := fun t ht => hk ⟨t, ht⟩
    exact .inr ⟨hk', run _ ⟨0, rfl, .inr ⟨_, hs, .other hk'⟩⟩⟩

/-- A request to flush a cache that does not exist, with a typing error in its name. -/
def fanRequest : HttpReq :=
  ⟨"POST".toList, "/twirp/comfo.api.Comfo/FlushCache".toList, "application/json".toList,
    lit "{\"Cache\":\"Fan\"}"⟩

theorem fan_body : IsBody [(lit "Cache", .str (lit "Fan"))] fanRequest.body := by
  refine text_body (.inr (.inr ⟨_, quote (lit "Cache") ++ 58 :: quote (lit "Fan"), rfl, rfl, .inr ?_⟩))
  exact Members.one (w₁ := []) (w₂ := []) (w₃ := []) (w₄ := []) ws_nil (quote_text (by decide)) ws_nil
    ws_nil (scalar_is_text (.str (quote_text (by decide)))) ws_nil

/-- **C90** is violated: a name that is not a cache is taken for `BootInfo`. -/
theorem C90_flush_violated (cv : FloatConv) :
    ¬ FlushNamed id (pbCodec jsonRequest jsonRequest_method) cv ∧
    MeantFor id .flushCache .json fanRequest ∧
    serve id (pbCodec jsonRequest jsonRequest_method) cv fanRequest =
      ((Call.flush 0).prog cv).bind fun a => .ret a.http := by
  have hm : MeantFor id .flushCache .json fanRequest :=
    ⟨rfl, rfl, rfl, [], "application/json".toList, [], [], by decide, by decide, by decide, by decide,
      .inl rfl⟩
  have hmem : Member [(lit "Cache", Json.str (lit "Fan"))] "Cache" (some (.str (lit "Fan"))) :=
    .there (a := []) (b := []) rfl nofun nofun
  have hno : ∀ t, (lit "Fan", t) ∉ cacheNames := by
    intro t ht
    have : lit "Fan" ∈ cacheNames.map (·.1) := List.mem_map.2 ⟨_, ht, rfl⟩
    revert this
    decide
  have hs : serve id (pbCodec jsonRequest jsonRequest_method) cv fanRequest =
      ((Call.flush 0).prog cv).bind fun a => .ret a.http := by
    rcases C90_flush_partial id cv fanRequest _ _ hm fan_body hmem with ⟨t, h, -⟩ | ⟨-, h⟩
    · exact absurd h (hno t)
    · exact h
  refine ⟨fun h => ?_, hm, hs⟩
  rcases h fanRequest _ _ hm fan_body hmem with ⟨t, h, -⟩ | ⟨-, h⟩
  · exact absurd h (hno t)
  · rw [hs] at h
    cases h

/-! ## Examples -/

/-- A body with white space, a number as a string, an unknown member with an array, an escape in a
name, and more text after it. -/
def oddBody : Bytes := lit " {\"x\":[1,{}], \"\\u0041bs\" : \"3e0\" ,\n\"Rel\":null } more"

/-- C89: it asks for the absolute speed 3. -/
example : ∃ l, IsBody l oddBody ∧ Asks .setFanSpeed l (.setSpeed 3 false) :=
  C89_request.1 (by decide +kernel)

/-- C89: the same member twice, a negative number, a number for a boolean, half an object, an array,
and half of a surrogate pair ask for nothing. -/
example : ∀ body ∈ [lit "{\"Abs\":1,\"Abs\":1}", lit "{\"Abs\":-1}", lit "{\"Rel\":1}", lit "{\"Abs\":1",
      lit "[1]", lit "{\"\\ud800\":1}"], ¬ ∃ l c, IsBody l body ∧ Asks .setFanSpeed l c := by
  have key : ∀ body ∈ [lit "{\"Abs\":1,\"Abs\":1}", lit "{\"Abs\":-1}", lit "{\"Rel\":1}",
      lit "{\"Abs\":1", lit "[1]", lit "{\"\\ud800\":1}"], jsonRequest .setFanSpeed body = none := by
    decide +kernel
  rintro body hb ⟨l, c, h⟩
  have := key body hb
  rw [C89_request.2 ⟨l, h⟩] at this
  cases this

/-- C89: the text of an answer. -/
example : msgText true true 2 [(1, .u32 3), (2, .u32 20), (3, .u32 0), (4, .str (lit "CA\"350"))] =
    some (lit ("{\"MajorVersion\":3, \"MinorVersion\":20, \"BetaVersion\":0, " ++
      "\"DeviceName\":\"CA\\\"350\"}")) := by
  decide +kernel

/-- C89: the same answer, sent without spaces and with the members in another order, is read as the
same. -/
example : jsonAnswer .getBootInfo (lit ("{\"DeviceName\":\"CA\\u0022350\",\"MinorVersion\":\"20\"," ++
      "\"MajorVersion\":30e-1}")) =
    some [(1, .u32 3), (2, .u32 20), (3, .u32 0), (4, .str (lit "CA\"350"))] := by
  decide +kernel

/-- C89: the text of an error, with metadata in order and `<` escaped. -/
example : errText ⟨lit "internal", lit "a<b", [(lit "cause", lit "x"), (lit "abc", lit "y")]⟩ =
    lit "{\"code\":\"internal\",\"msg\":\"a\\u003cb\",\"meta\":{\"abc\":\"y\",\"cause\":\"x\"}}" := by
  decide +kernel

/-- C89: the names of the members of an error are read whatever their case. -/
example : errOf (lit "{\"CODE\":\"internal\", \"Msg\":\"m\", \"metA\":{\"Cause\":\"x\"}}") =
    some ⟨lit "internal", lit "m", [(lit "Cause", lit "x")]⟩ := by
  decide +kernel

/-- C89: an answer of the unit with temperatures below zero is sent, and read by the client. -/
example (a b : Bool) (q : HttpReq) : ∃ body, respond (goJson a b) toyWording .json .getTemps q
      (Resp.http (.temps (.ok ⟨20, -5, 18, 21, 0, 0, 0, 0⟩))) = ⟨200, [], .ok body⟩ ∧
    jsonAnswer .getTemps body = some (answerFields (.temps (.ok ⟨20, -5, 18, 21, 0, 0, 0, 0⟩))) := by
  have ht : ExactTemps (.temps (.ok ⟨20, -5, 18, 21, 0, 0, 0, 0⟩)) := by
    simp only [ExactTemps, Exact]
    decide
  obtain ⟨body, h1, h2⟩ := C89_answer a b toyWording q (m := .getTemps)
    (r := .temps (.ok ⟨20, -5, 18, 21, 0, 0, 0, 0⟩)) trivial rfl ht
  exact ⟨body, h1, answer_read (m := .getTemps) (r := .temps (.ok _)) trivial rfl ht (text_body h2)⟩

end Comfo.Props
