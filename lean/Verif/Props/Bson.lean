import Verif.Spec.Bson
import Verif.Props.Str
import Verif.Props.Dec
import Verif.Props.Time
import Verif.Props.Num
/-!
# C29, C30, C61: options, booleans and times in BSON
-/
namespace CCGL
open Spec

theorem stringMatch_nil (v : Str) : stringMatch [] v = true ↔ v = [] := by
  rw [C34_match]
  constructor
  · intro h
    have := h.1
    simpa using this.symm
  · rintro rfl; exact ⟨rfl, by simp⟩

theorem numText_ne {v : Str} {x : DVal} (h : NumText v x) : v ≠ [] := by
  rintro rfl
  exact C37_false_empty.2 ⟨x, h⟩

theorem encode_text (v : Str) (h : ∀ x, ¬ NumText v x) (h0 : Char.ofNat 0 ∉ v) : encodeOption v = .ok (.utf8 v) := by
  unfold encodeOption
  dsimp only
  rw [if_pos, cstr_of_no_nul v h0]
  rw [Bool.or_eq_true]
  by_cases hv : v = []
  · left; exact (stringMatch_nil v).2 hv
  · right
    have : isNumber v ≠ true := by
      rw [Ne, C37_isNumber_partial v hv]; rintro ⟨x, hx⟩; exact h x hx
    unfold isNumber at this
    simp only [Bool.not_eq_true] at this
    rw [this]; rfl

theorem encode_num (v : Str) (x : DVal) (h : NumText v x) : encodeOption v =
    match x with
    | .fin q => if q.den = 1 then (if -(2 ^ 31) ≤ q ∧ q < 2 ^ 31 then .ok (.int32 q.num) else .ub)
                else .ok (.double (.fin q))
    | .inf _ => .ub
    | .nan => .ok (.double .nan) := by
  have hm : stringMatch [] v = false := by
    rw [Bool.eq_false_iff, Ne, stringMatch_nil]; exact numText_ne h
  unfold encodeOption
  dsimp only
  rw [(C37_value v x h).1, hm]
  cases x <;> rfl

theorem encode_int (v : Str) (z : Int) (h : NumText v (.fin z)) (hz : -(2 ^ 31) ≤ z ∧ z < 2 ^ 31) :
    encodeOption v = .ok (.int32 z) := by
  rw [encode_num v _ h]
  simp only [Rat.den_intCast, if_true, Rat.num_intCast]
  rw [if_pos]
  exact ⟨by exact_mod_cast hz.1, by exact_mod_cast hz.2⟩

theorem encode_int_ub (v : Str) (z : Int) (h : NumText v (.fin z)) (hz : ¬ (-(2 ^ 31) ≤ z ∧ z < 2 ^ 31)) :
    encodeOption v = .ub := by
  rw [encode_num v _ h]
  simp only [Rat.den_intCast, if_true]
  rw [if_neg]
  rintro ⟨h1, h2⟩
  exact hz ⟨by exact_mod_cast h1, by exact_mod_cast h2⟩

theorem encode_frac (v : Str) (q : ℚ) (h : NumText v (.fin q)) (hq : q.den ≠ 1) :
    encodeOption v = .ok (.double (.fin q)) := by
  rw [encode_num v _ h]; simp only [hq, if_false]

theorem encode_ub (v : Str) (h0 : Char.ofNat 0 ∉ v) : encodeOption v = .ub ↔ Unstorable v := by
  by_cases hn : ∀ x, ¬ NumText v x
  · rw [encode_text v hn h0]
    constructor
    · intro h; cases h
    · rintro (⟨b, h⟩ | ⟨z, h, _⟩) <;> exact absurd h (hn _)
  · simp only [not_forall, not_not] at hn
    obtain ⟨x, hx⟩ := hn
    constructor
    · intro h
      rw [encode_num v x hx] at h
      cases x with
      | fin q =>
        simp only at h
        split_ifs at h with h1 h2
        right
        have e : q = (q.num : ℚ) := ((Rat.den_eq_one_iff q).1 h1).symm
        refine ⟨q.num, by rw [← e]; exact hx, ?_⟩
        rintro ⟨a, b⟩
        apply h2
        rw [e]
        exact ⟨by exact_mod_cast a, by exact_mod_cast b⟩
      | inf b => exact .inl ⟨b, hx⟩
      | nan => simp at h
    · rintro (⟨b, h⟩ | ⟨z, h, hz⟩)
      · rw [encode_num v _ h]
      · exact encode_int_ub v z h hz

theorem encode_total (v : Str) (h0 : Char.ofNat 0 ∉ v) (h : ¬ Unstorable v) : ∃ b, encodeOption v = .ok b := by
  have h1 := mt (encode_ub v h0).1 h
  unfold encodeOption at h1 ⊢
  dsimp only at h1 ⊢
  split_ifs at h1 ⊢ with h2
  · exact ⟨_, rfl⟩
  · cases hx : (isDouble v).1 with
    | fin q =>
      rw [hx] at h1
      simp only at h1 ⊢
      split_ifs at h1 ⊢
      all_goals first | exact ⟨_, rfl⟩ | exact absurd rfl h1
    | inf b => rw [hx] at h1; exact absurd rfl h1
    | nan => exact ⟨_, rfl⟩

theorem encode_meaning (v : Str) (h0 : Char.ofNat 0 ∉ v) (b : BVal) (h : encodeOption v = .ok b) :
    SameMeaning v (bsonString b) ∧ ∀ x, NumText v x → bsonNumeric b = some x := by
  by_cases hn : ∀ x, ¬ NumText v x
  · rw [encode_text v hn h0] at h
    injection h with h; subst h
    exact ⟨⟨fun _ => rfl, fun z hz => absurd hz (hn _), fun z hz => absurd hz (hn _),
      fun z hz => absurd hz (hn _)⟩, fun x hx => absurd hx (hn x)⟩
  · simp only [not_forall, not_not] at hn
    obtain ⟨x, hx⟩ := hn
    have huniq : ∀ y, NumText v y → y = x := fun y hy => C37_value_unique v y x hy hx
    have hfin : ∀ q q' : ℚ, DVal.fin q = .fin q' → q = q' := fun q q' h => by injection h
    cases x with
    | fin q =>
      by_cases hd : q.den = 1
      · have e : q = (q.num : ℚ) := ((Rat.den_eq_one_iff q).1 hd).symm
        have hz : -(2 ^ 31) ≤ q.num ∧ q.num < 2 ^ 31 := by
          by_contra hz
          rw [encode_int_ub v q.num (by rw [← e]; exact hx) hz] at h
          cases h
        rw [encode_int v q.num (by rw [← e]; exact hx) hz] at h
        injection h with h; subst h
        have ht : NumText (intToDec q.num) (.fin q) := by
          have := intToDec_text q.num
          rwa [← e] at this
        refine ⟨⟨fun h => absurd hx (h _), ?_, ?_, ?_⟩, ?_⟩
        · intro z hz; rw [huniq _ hz]; exact ht
        · intro q' hq _; rw [huniq _ hq]; exact ht
        · intro q' hq
          have := hfin _ _ (huniq _ hq)
          subst this
          exact ⟨q', ht, by simp; positivity⟩
        · intro y hy
          rw [huniq y hy]
          show some (DVal.fin _) = _
          rw [← e]
      · rw [encode_frac v q hx hd] at h
        injection h with h; subst h
        refine ⟨⟨fun h => absurd hx (h _), ?_, ?_, ?_⟩, ?_⟩
        · intro z hz
          have := hfin _ _ (huniq _ hz)
          subst this
          simp at hd
        · intro q' hq hs
          have := hfin _ _ (huniq _ hq)
          subst this
          have := fmtG_text q'
          rw [gRound_exact hs] at this
          exact this
        · intro q' hq
          have := hfin _ _ (huniq _ hq)
          subst this
          exact ⟨_, fmtG_text q', gRound_near q'⟩
        · intro y hy; rw [huniq y hy]; rfl
    | inf b => rw [encode_num v _ hx] at h; cases h
    | nan =>
      rw [encode_num v _ hx] at h
      injection h with h; subst h
      refine ⟨⟨fun h => absurd hx (h _), ?_, ?_, ?_⟩, fun y hy => by rw [huniq y hy]; rfl⟩
      · intro z hz; exact absurd (huniq _ hz) (by simp)
      · intro z hz; exact absurd (huniq _ hz) (by simp)
      · intro z hz; exact absurd (huniq _ hz) (by simp)

theorem BDoc.find_append (d : BDoc) (k key : Str) (b : BVal) : (d ++ [(k, b)]).find key =
    match d.find key with
    | some x => some x
    | none => if k = key then some b else none := by
  unfold BDoc.find
  rw [List.find?_append]
  cases h : d.find? (fun e => decide (e.1 = key)) with
  | some x => simp
  | none =>
    by_cases hk : k = key <;> simp [hk]

/-- The document after appending: earlier elements stay, every option is found, nothing else is. -/
theorem append_spec (opts : List (Str × Str)) (pre : Str) (d : BDoc)
    (hp : Char.ofNat 0 ∉ pre) (hk : ∀ kv ∈ opts, Char.ofNat 0 ∉ kv.1)
    (hnd : (opts.map (·.1)).Nodup) (hfree : ∀ kv ∈ opts, d.find (pre ++ kv.1) = none)
    (enc : Str → BVal) (henc : ∀ kv ∈ opts, encodeOption kv.2 = .ok (enc kv.2)) :
    ∃ d', appendOptions d opts pre = .ok d' ∧
      (∀ kv ∈ opts, d'.find (pre ++ kv.1) = some (enc kv.2)) ∧
      (∀ key, (∀ kv ∈ opts, key ≠ pre ++ kv.1) → d'.find key = d.find key) := by
  induction opts generalizing d with
  | nil => exact ⟨d, rfl, by simp, fun _ _ => rfl⟩
  | cons kv opts ih =>
    obtain ⟨k, v⟩ := kv
    have hkn : cstr (pre ++ k) = pre ++ k := by
      apply cstr_of_no_nul
      rw [List.mem_append]
      rintro (h | h)
      · exact hp h
      · exact hk _ List.mem_cons_self h
    rw [List.map_cons, List.nodup_cons] at hnd
    have hne : ∀ kv ∈ opts, pre ++ k ≠ pre ++ kv.1 := by
      intro kv hkv h
      apply hnd.1
      rw [show k = kv.1 from List.append_cancel_left h]
      exact List.mem_map.2 ⟨kv, hkv, rfl⟩
    have step : appendOptions d ((k, v) :: opts) pre = appendOptions (d ++ [(pre ++ k, enc v)]) opts pre := by
      simp only [appendOptions]
      rw [henc (k, v) List.mem_cons_self, Out.ok_bind, hkn]
    obtain ⟨d', h1, h2, h3⟩ := ih (d ++ [(pre ++ k, enc v)])
      (fun kv h => hk kv (List.mem_cons_of_mem _ h)) hnd.2
      (by
        intro kv hkv
        rw [BDoc.find_append, hfree kv (List.mem_cons_of_mem _ hkv), if_neg (hne kv hkv)])
      (fun kv h => henc kv (List.mem_cons_of_mem _ h))
    refine ⟨d', by rw [step]; exact h1, ?_, ?_⟩
    · intro kv hkv
      rcases List.mem_cons.1 hkv with rfl | hkv
      · rw [h3 _ hne, BDoc.find_append]
        have := hfree (k, v) List.mem_cons_self
        rw [this]; simp
      · exact h2 kv hkv
    · intro key hkey
      rw [h3 key (fun kv h => hkey kv (List.mem_cons_of_mem _ h)), BDoc.find_append]
      have := hkey (k, v) List.mem_cons_self
      cases hd : d.find key with
      | some x => rfl
      | none => rw [if_neg (fun h => this h.symm)]

/-- C29: options (with distinct keys, none beyond 32-bit integers or infinite) written into a document are found
under their prefixed keys with the same meaning, as text and as a number; all other keys are unaffected. -/
theorem C29_roundtrip_partial (opts : List (Str × Str)) (pre : Str) (d : BDoc)
    (hp : Char.ofNat 0 ∉ pre) (hk : ∀ kv ∈ opts, Char.ofNat 0 ∉ kv.1 ∧ Char.ofNat 0 ∉ kv.2)
    (hnd : (opts.map (·.1)).Nodup) (hfree : ∀ kv ∈ opts, d.find (pre ++ kv.1) = none)
    (hs : ∀ kv ∈ opts, ¬ Unstorable kv.2) :
    ∃ d', appendOptions d opts pre = .ok d' ∧
      (∀ k v, (k, v) ∈ opts → SameMeaning v (getStringFromBson d' (pre ++ k)) ∧
        ∀ x, NumText v x → getNumericFromBson d' (pre ++ k) = some x) ∧
      (∀ key, (∀ kv ∈ opts, key ≠ pre ++ kv.1) → d'.find key = d.find key) := by
  classical
  have hex : ∀ v : Str, ∃ b, (∃ kv ∈ opts, kv.2 = v) → encodeOption v = .ok b := by
    intro v
    by_cases h : ∃ kv ∈ opts, kv.2 = v
    · obtain ⟨kv, hkv, rfl⟩ := h
      obtain ⟨b, hb⟩ := encode_total kv.2 (hk kv hkv).2 (hs kv hkv)
      exact ⟨b, fun _ => hb⟩
    · exact ⟨.other, fun h' => absurd h' h⟩
  choose enc henc using hex
  obtain ⟨d', h1, h2, h3⟩ := append_spec opts pre d hp (fun kv h => (hk kv h).1) hnd hfree enc
    (fun kv h => henc kv.2 ⟨kv, h, rfl⟩)
  refine ⟨d', h1, ?_, h3⟩
  intro k v hkv
  have hc : cstr (pre ++ k) = pre ++ k := by
    apply cstr_of_no_nul
    rw [List.mem_append]
    rintro (h | h)
    · exact hp h
    · exact (hk _ hkv).1 h
  have hm := encode_meaning v (hk _ hkv).2 (enc v) (henc v ⟨_, hkv, rfl⟩)
  unfold getStringFromBson getNumericFromBson
  rw [hc, h2 _ hkv]
  exact hm

/-- C29 is false of integers beyond 32 bits and of infinities: storing them is undefined behaviour. -/
theorem C29_false (d : BDoc) (pre k v : Str) (hv : Char.ofNat 0 ∉ v) (h : Unstorable v) :
    appendOptions d [(k, v)] pre = .ub := by
  simp only [appendOptions]
  rw [(encode_ub v hv).2 h]; rfl

example : Unstorable "3000000000".toList :=
  .inr ⟨3000000000, by
    have := intToDec_text 3000000000
    have e : intToDec 3000000000 = "3000000000".toList := by decide +kernel
    rwa [e] at this, by norm_num⟩

/-- Absent keys read as the empty text and no number. -/
theorem C29_missing (d : BDoc) (k : Str) (h : d.find (cstr k) = none) :
    getStringFromBson d k = [] ∧ getNumericFromBson d k = none ∧ getBoolFromBson d k = false := by
  unfold getStringFromBson getNumericFromBson getBoolFromBson; rw [h]; exact ⟨rfl, rfl, rfl⟩

example : appendOptions [] [("A".toList, "0010".toList), ("B".toList, "2.5".toList), ("C".toList, "x1".toList)] "m.".toList =
    .ok [("m.A".toList, .int32 10), ("m.B".toList, .double (.fin (5/2))), ("m.C".toList, .utf8 "x1".toList)] := by
  decide +kernel

/-- C29, C30: infinite and NaN doubles of a document: the text is that of the C++ streams, the number is kept, and as a truth value they are false. -/
theorem C29_special (d : BDoc) (k : Str) (x : DVal) (hf : d.find (cstr k) = some (.double x)) :
    getNumericFromBson d k = some x ∧ (∀ neg, x = .inf neg → getStringFromBson d k = (if neg then ['-'] else []) ++ ['i', 'n', 'f'] ∧ getBoolFromBson d k = false) ∧
    (x = .nan → getStringFromBson d k = ['n', 'a', 'n'] ∧ getBoolFromBson d k = false) := by
  unfold getStringFromBson getNumericFromBson getBoolFromBson
  rw [hf]
  refine ⟨rfl, ?_, ?_⟩
  · rintro neg rfl
    cases neg <;> exact ⟨rfl, rfl⟩
  · rintro rfl
    exact ⟨rfl, rfl⟩

example : getStringFromBson [("a".toList, .double (.inf true))] "a".toList = "-inf".toList :=
  ((C29_special _ "a".toList (.inf true) (by decide +kernel)).2.1 true rfl).1

/-- C29: a number stored as text (by another program) is read as the number; text without a digit is not a number. -/
theorem C29_text (d : BDoc) (k s : Str) (hf : d.find (cstr k) = some (.utf8 s)) :
    (∀ x, NumText s x → (∃ c ∈ s, '0' ≤ c ∧ c ≤ '9') → getNumericFromBson d k = some x) ∧
    ((∀ c ∈ s, ¬ ('0' ≤ c ∧ c ≤ '9')) → getNumericFromBson d k = none) := by
  have hd : s.any isDigitC = true ↔ ∃ c ∈ s, '0' ≤ c ∧ c ≤ '9' := by
    rw [List.any_eq_true]
    constructor
    · rintro ⟨c, hc, h⟩
      simp only [isDigitC, Bool.and_eq_true, decide_eq_true_eq] at h
      exact ⟨c, hc, h⟩
    · rintro ⟨c, hc, h⟩
      refine ⟨c, hc, ?_⟩
      simp only [isDigitC, Bool.and_eq_true, decide_eq_true_eq]
      exact h
  unfold getNumericFromBson
  rw [hf]
  simp only [bsonNumeric]
  constructor
  · intro x hx h
    rw [if_pos (hd.2 h), strtod_text hx]
  · intro h
    rw [if_neg]
    rw [hd]
    rintro ⟨c, hc, h'⟩
    exact h c hc h'

example : getNumericFromBson [("A".toList, .utf8 " 2.5".toList)] "A".toList = some (.fin (5 / 2)) := by decide +kernel

/-! ## C30 -/

/-- C30 for text: true exactly for TRUE in any letter case. -/
theorem C30_text_partial (d : BDoc) (k s : Str) (h : d.find (cstr k) = some (.utf8 s)) :
    getBoolFromBson d k = true ↔ SameText s "TRUE".toList := by
  unfold getBoolFromBson; rw [h]; exact C34_match _ _

/-- C30 is false of every number: zero reads as true, and every number of at least 1e-32 as false. -/
theorem C30_false_number (d : BDoc) (k : Str) (b : BVal) (q : ℚ) (h : d.find (cstr k) = some b)
    (hb : IsNumber b q) : (q = 0 → getBoolFromBson d k = true) ∧
      (1 / 10 ^ 32 ≤ |q| → getBoolFromBson d k = false) := by
  have e : bsonBool b = floatEqual q 0 := by
    rcases hb with ⟨i, rfl | rfl, rfl⟩ | rfl <;> rfl
  unfold getBoolFromBson
  rw [h]
  simp only
  rw [e]
  constructor
  · rintro rfl; decide +kernel
  · intro hq
    unfold floatEqual
    simp only [sub_zero, decide_eq_false_iff_not, not_lt]
    exact hq

/-- In particular every non-zero integer reads as false. -/
theorem C30_false_int (d : BDoc) (k : Str) (i : Int) (h : d.find (cstr k) = some (.int32 i)) :
    getBoolFromBson d k = decide (i = 0) := by
  obtain ⟨h1, h2⟩ := C30_false_number d k _ (i : ℚ) h (.inl ⟨i, .inl rfl, rfl⟩)
  by_cases hi : i = 0
  · subst hi; rw [h1 (by simp)]; rfl
  · have h3 : (1 : ℚ) ≤ |(i : ℚ)| := by
      have : (1 : ℤ) ≤ |i| := Int.one_le_abs hi
      exact_mod_cast this
    have h4 : (1 : ℚ) / 10 ^ 32 ≤ 1 := by norm_num
    rw [h2 (le_trans h4 h3)]; simp [hi]

/-- C30 is false of BSON booleans: they always read as false. -/
theorem C30_false_bool (d : BDoc) (k : Str) (b : Bool) (h : d.find (cstr k) = some (.bool b)) :
    getBoolFromBson d k = false := by
  unfold getBoolFromBson; rw [h]; rfl

/-! ## C61: times -/

theorem natToDec_thousand (n : Nat) (h : 1000 ≤ n) :
    ∃ a b c : Char, natToDec n = natToDec (n / 1000) ++ [a, b, c] := by
  refine ⟨digitChar (n / 10 / 10 % 10), digitChar (n / 10 % 10), digitChar (n % 10), ?_⟩
  rw [natToDec_ge n (by omega), natToDec_ge (n / 10) (by omega), natToDec_ge (n / 10 / 10) (by omega)]
  have e : n / 10 / 10 / 10 = n / 1000 := by omega
  rw [e, List.append_assoc, List.append_assoc]
  rfl

theorem atoi_intToDec (z : Int) (h : -(2 ^ 31) ≤ z ∧ z < 2 ^ 31) : atoi (intToDec z) = z := by
  have := C36_itoa z h.1 h.2
  unfold isInt at this
  exact (Prod.mk.inj this).1

theorem natToDec_length_lt (n : Nat) (h : n < 1000) : (natToDec n).length ≤ 3 := by
  by_cases h1 : n < 10
  · rw [natToDec_lt n h1]; simp
  · rw [natToDec_ge n h1]
    by_cases h2 : n / 10 < 10
    · rw [natToDec_lt _ h2]; simp
    · rw [natToDec_ge _ h2, natToDec_lt _ (by omega)]; simp

theorem tdiv_thousand (a : Int) : a.tdiv 1000 = a / 1000 ∨ a.tdiv 1000 = a / 1000 + 1 := by
  rw [Int.tdiv_eq_ediv]; split_ifs <;> simp

/-- C61: a BSON date of at least a second before or after 1970 is decoded to its whole seconds (towards 1970), taken
modulo `2^32` (into the range of 32 bits with sign). -/
theorem C61_seconds_mod (d : BDoc) (k : Str) (ms : Int) (h : d.find (cstr k) = some (.datetime ms))
    (h1 : 1000 ≤ ms ∨ ms ≤ -1000) (h2 : -(2 ^ 63) ≤ ms ∧ ms < 2 ^ 63) :
    ∃ r, getDatetimeFromBson d k = .ok r ∧ -(2 ^ 31) ≤ r ∧ r < 2 ^ 31 ∧ (2 ^ 32 : Int) ∣ (r - ms.tdiv 1000) := by
  have hb : -(2 ^ 63) ≤ ms.tdiv 1000 ∧ ms.tdiv 1000 ≤ 2 ^ 63 - 1 := by
    have := tdiv_thousand ms
    constructor <;> omega
  refine ⟨wrapInt32 (ms.tdiv 1000), ?_, ?_, ?_, ?_⟩
  rotate_left
  · unfold wrapInt32; omega
  · unfold wrapInt32; omega
  · unfold wrapInt32
    exact ⟨-((ms.tdiv 1000 + 2 ^ 31) / 2 ^ 32), by omega⟩
  unfold getDatetimeFromBson
  rw [h]
  show Out.ok (datetimeSeconds ms) = _
  congr 1
  unfold datetimeSeconds
  dsimp only
  have key : (if (intToDec ms).length < 3 then intToDec ms else (intToDec ms).take ((intToDec ms).length - 3)) =
      intToDec (ms.tdiv 1000) := by
    rcases h1 with h1 | h1
    · obtain ⟨n, rfl⟩ := Int.eq_ofNat_of_zero_le (show 0 ≤ ms by omega)
      have e : Int.tdiv (n : Int) 1000 = ((n / 1000 : Nat) : Int) := by
        rw [Int.tdiv_eq_ediv_of_nonneg (by omega)]; rfl
      rw [e]
      show (if (natToDec n).length < 3 then natToDec n else (natToDec n).take _) = natToDec (n / 1000)
      obtain ⟨a, b, c, hn⟩ := natToDec_thousand n (by omega)
      show (if (natToDec n).length < 3 then natToDec n else (natToDec n).take ((natToDec n).length - 3)) = _
      rw [hn, if_neg (by simp)]
      simp
    · obtain ⟨n, hn'⟩ := Int.eq_ofNat_of_zero_le (show 0 ≤ -ms by omega)
      have hms : ms = -(n : Int) := by omega
      have e : Int.tdiv ms 1000 = -((n / 1000 : Nat) : Int) := by
        rw [hms, Int.neg_tdiv, Int.tdiv_eq_ediv_of_nonneg (by omega)]; rfl
      have hneg : ∀ m : Nat, 0 < m → intToDec (-(m : Int)) = '-' :: natToDec m := by
        intro m hm
        obtain ⟨j, rfl⟩ := Nat.exists_eq_succ_of_ne_zero hm.ne'
        rfl
      rw [e, hms, hneg n (by omega), hneg (n / 1000) (by omega)]
      obtain ⟨a, b, c, hn⟩ := natToDec_thousand n (by omega)
      rw [hn, if_neg (by simp)]
      simp only [List.length_cons, List.length_append, List.length_nil]
      have hl : (natToDec (n / 1000)).length + (0 + 1 + 1 + 1) + 1 - 3 = (natToDec (n / 1000)).length + 1 := by omega
      rw [hl, List.take_succ_cons]
      simp
  rw [key]
  unfold atoi
  rw [strtol_intToDec _ hb.1 hb.2]

/-- C61: a BSON date of at least a second before or after 1970 is decoded to its whole seconds (towards 1970), as
long as they fit into 32 bits. -/
theorem C61_seconds_partial (d : BDoc) (k : Str) (ms : Int) (h : d.find (cstr k) = some (.datetime ms))
    (h1 : 1000 ≤ ms ∨ ms ≤ -1000) (h2 : -(2 ^ 31) ≤ ms.tdiv 1000 ∧ ms.tdiv 1000 < 2 ^ 31) :
    getDatetimeFromBson d k = .ok (ms.tdiv 1000) := by
  obtain ⟨r, hr, r1, r2, c, hc⟩ := C61_seconds_mod d k ms h h1 (by have := tdiv_thousand ms; constructor <;> omega)
  rw [hr]
  congr 1; omega

/-- C61: an absent key, or a value that is neither a date nor a text, is decoded to -1. -/
theorem C61_missing (d : BDoc) (k : Str)
    (h : ∀ b, d.find (cstr k) = some b → (∀ ms, b ≠ .datetime ms) ∧ ∀ s, b ≠ .utf8 s) :
    getDatetimeFromBson d k = .ok (-1) := by
  unfold getDatetimeFromBson
  cases hf : d.find (cstr k) with
  | none => rfl
  | some b =>
    obtain ⟨h1, h2⟩ := h b hf
    cases b with
    | datetime ms => exact absurd rfl (h1 ms)
    | utf8 s => exact absurd rfl (h2 s)
    | _ => rfl

/-- C61: dates in the second before 1970 are decoded to 0, except for the last 9 milliseconds, which are returned as
seconds. -/
theorem C61_last_second (d : BDoc) (k : Str) (ms : Int) (h : d.find (cstr k) = some (.datetime ms))
    (h1 : -1000 < ms ∧ ms < 0) : getDatetimeFromBson d k = .ok (if ms ≤ -10 then 0 else ms) := by
  unfold getDatetimeFromBson
  rw [h]
  show Out.ok (datetimeSeconds ms) = _
  congr 1
  obtain ⟨n, hn'⟩ := Int.eq_ofNat_of_zero_le (show 0 ≤ -ms by omega)
  have hms : ms = -(n : Int) := by omega
  have hneg : intToDec (-(n : Int)) = '-' :: natToDec n := by
    obtain ⟨j, rfl⟩ := Nat.exists_eq_succ_of_ne_zero (show n ≠ 0 by omega)
    rfl
  unfold datetimeSeconds
  dsimp only
  by_cases h2 : n < 10
  · rw [if_neg (show ¬ ms ≤ -10 by omega), if_pos]
    · exact atoi_intToDec ms (by omega)
    · rw [hms, hneg, natToDec_lt n h2]; simp
  · rw [if_pos (show ms ≤ -10 by omega)]
    by_cases h3 : n < 100
    · have hl : (intToDec ms).length = 3 := by
        rw [hms, hneg, natToDec_ge n h2, natToDec_lt _ (by omega)]; rfl
      rw [hl, if_neg (by omega), show 3 - 3 = 0 from rfl, List.take_zero]
      decide
    · have hl : (intToDec ms).length = 4 := by
        rw [hms, hneg, natToDec_ge n h2, natToDec_ge (n / 10) (by omega), natToDec_lt _ (by omega)]; rfl
      rw [hl, if_neg (by omega), hms, hneg]
      simp
      decide

example : getDatetimeFromBson [("T".toList, .datetime (-5))] "T".toList = .ok (-5) ∧
    getDatetimeFromBson [("T".toList, .datetime 2147483648000)] "T".toList = .ok (-2147483648) ∧
    getDatetimeFromBson [("T".toList, .int32 7)] "T".toList = .ok (-1) := by decide +kernel


/-- C61: dates of 0.1 to 1 second are decoded to 0. -/
theorem C61_second_zero (d : BDoc) (k : Str) (ms : Int) (h : d.find (cstr k) = some (.datetime ms))
    (h1 : 100 ≤ ms ∧ ms < 1000) : getDatetimeFromBson d k = .ok 0 := by
  unfold getDatetimeFromBson
  rw [h]
  show Out.ok (datetimeSeconds ms) = _
  congr 1
  obtain ⟨n, rfl⟩ := Int.eq_ofNat_of_zero_le (show 0 ≤ ms by omega)
  have hl : (natToDec n).length = 3 := by
    rw [natToDec_ge n (by omega), natToDec_ge (n / 10) (by omega), natToDec_lt _ (by omega)]; rfl
  unfold datetimeSeconds
  show atoi (if (natToDec n).length < 3 then natToDec n else (natToDec n).take ((natToDec n).length - 3)) = 0
  rw [hl]
  simp only [lt_irrefl, if_false, Nat.sub_self, List.take_zero]
  decide

/-- C61 is false of the first tenth of a second of 1970: its milliseconds are returned as seconds. -/
theorem C61_false_small (d : BDoc) (k : Str) (ms : Int) (h : d.find (cstr k) = some (.datetime ms))
    (h1 : 0 ≤ ms ∧ ms < 100) : getDatetimeFromBson d k = .ok ms := by
  unfold getDatetimeFromBson
  rw [h]
  show Out.ok (datetimeSeconds ms) = _
  congr 1
  obtain ⟨n, rfl⟩ := Int.eq_ofNat_of_zero_le h1.1
  have hl : (natToDec n).length < 3 := by
    by_cases h2 : n < 10
    · rw [natToDec_lt n h2]; simp
    · rw [natToDec_ge n h2, natToDec_lt _ (by omega)]; simp
  unfold datetimeSeconds
  show atoi (if (natToDec n).length < 3 then natToDec n else _) = _
  rw [if_pos hl]
  exact atoi_intToDec n (by omega)

/-- C61 is false after 2038-01-19: the seconds are truncated to 32 bits. -/
theorem C61_false_2038 : datetimeSeconds 2147483648000 = -2147483648 := by decide +kernel

/-- C61: a date and time stored as the text `ConvertToString2` makes of it is decoded to the same second. -/
theorem C61_text (d : BDoc) (k s : Str) (t : Int) (h : d.find (cstr k) = some (.utf8 s))
    (h0 : 1000 ≤ getYear t) (h1 : getYear t ≤ 9999) (hs : convertToString2 t = .ok s) :
    getDatetimeFromBson d k = .ok t := by
  have h2 := C47_roundtrip2 t h0 h1 4 2 (.inr rfl) (.inr rfl)
  rw [hs, Out.ok_bind] at h2
  have hl : s.length > 12 := by
    rw [convertToString2_eq t h0 h1] at hs
    injection hs with hs
    rw [← hs]
    simp [fourDigits, twoDigits]
  unfold getDatetimeFromBson
  rw [h]
  show (if s.length > 12 then convertToTime s dateTimeFmt true else _) = _
  rw [if_pos hl]; exact h2

/-- C61: a date stored as the text `ConvertToString` makes of it is decoded to the start of the day. -/
theorem C61_date (d : BDoc) (k s : Str) (t : Int) (h : d.find (cstr k) = some (.utf8 s))
    (h0 : 1000 ≤ getYear t) (h1 : getYear t ≤ 9999) (hs : convertToString t = .ok s) :
    getDatetimeFromBson d k = .ok (86400 * (t / 86400)) := by
  have h2 := C47_roundtrip t h0 h1 4 2 (.inr rfl) (.inr rfl)
  rw [hs, Out.ok_bind] at h2
  have hl : ¬ s.length > 12 := by
    rw [convertToString_eq t h0 h1] at hs
    injection hs with hs
    rw [← hs]
    simp [fourDigits, twoDigits]
  unfold getDatetimeFromBson
  rw [h]
  show (if s.length > 12 then _ else convertToTime s dateFmt false) = _
  rw [if_neg hl]; exact h2

example : getDatetimeFromBson [("T".toList, .datetime 1136073600999)] "T".toList = .ok 1136073600 := by decide +kernel

end CCGL
