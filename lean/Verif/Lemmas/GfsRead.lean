import Verif.Lemmas.Gfs
import Verif.Props.Geotiff
/-!
# Lemmas on reading rasters from GridFS
-/
namespace CCGL
namespace Gfs
open Spec Gtiff

/-! ## Conversions -/

theorem dblOfNat_exact {n : Nat} (h : ∃ (m : Int) (e : Int), m.natAbs < 2 ^ 53 ∧ (n : ℚ) = (m : ℚ) * (2 : ℚ) ^ e) : dblOfNat n = n := by
  obtain ⟨m, e, hm, he⟩ := h
  by_cases hs : n < 2 ^ 53
  · exact dblOfNat_small hs
  · have hn : 2 ^ 53 ≤ n := not_lt.1 hs
    have hmpos : 0 < m := by
      by_contra hh
      have h1 : (m : ℚ) ≤ 0 := by exact_mod_cast not_lt.1 hh
      have h2 : (0 : ℚ) < (2 : ℚ) ^ e := zpow_pos (by norm_num) _
      have h3 : (n : ℚ) ≤ 0 := by rw [he]; exact mul_nonpos_of_nonpos_of_nonneg h1 h2.le
      have h4 : (0 : ℚ) < n := by
        have : 0 < n := lt_of_lt_of_le (by positivity) hn
        exact_mod_cast this
      linarith
    have he0 : 0 ≤ e := by
      by_contra hh
      have h1 : (2 : ℚ) ^ e ≤ 1 := zpow_le_one_of_nonpos₀ (by norm_num) (by omega)
      have h2 : (n : ℚ) ≤ m := by
        rw [he]
        have : (0 : ℚ) ≤ m := by exact_mod_cast hmpos.le
        calc (m : ℚ) * 2 ^ e ≤ m * 1 := mul_le_mul_of_nonneg_left h1 this
          _ = m := mul_one _
      have h3 : (n : Int) ≤ m := by exact_mod_cast h2
      have h4 : n ≤ m.natAbs := by omega
      omega
    obtain ⟨k, rfl⟩ := Int.eq_ofNat_of_zero_le he0
    obtain ⟨M, rfl⟩ := Int.eq_ofNat_of_zero_le hmpos.le
    have hnM : n = M * 2 ^ k := by
      have : (n : ℚ) = ((M * 2 ^ k : Nat) : ℚ) := by rw [he]; push_cast; rfl
      exact_mod_cast this
    have hM : M < 2 ^ 53 := by simpa using hm
    have hlog : Nat.log2 n - 52 ≤ k := by
      have : Nat.log2 n < 53 + k := by
        rw [Nat.log2_lt (by omega), hnM, pow_add]
        exact Nat.mul_lt_mul_of_pos_right hM (by positivity)
      omega
    have hdvd : 2 ^ (Nat.log2 n - 52) ∣ n := by
      conv_rhs => rw [hnM]
      exact (pow_dvd_pow 2 hlog).mul_left M
    unfold dblOfNat
    rw [if_neg hs]
    dsimp only
    have hr : n % 2 ^ (Nat.log2 n - 52) = 0 := Nat.mod_eq_zero_of_dvd hdvd
    have hu : 0 < 2 ^ (Nat.log2 n - 52) := by positivity
    rw [hr, if_neg (by rintro (h | ⟨h, _⟩) <;> omega)]
    exact Nat.div_mul_cancel hdvd

theorem dblOfInt_exact {n : Int} (h : Representable .double (n : ℚ)) : dblOfInt n = n := by
  obtain ⟨m, e, hm, _, _, he⟩ := h
  unfold dblOfInt
  by_cases h0 : 0 ≤ n
  · obtain ⟨k, rfl⟩ := Int.eq_ofNat_of_zero_le h0
    rw [if_pos h0, Int.toNat_natCast, dblOfNat_exact ⟨m, e, hm, by simpa using he⟩]
    simp
  · rw [if_neg h0]
    have h1 : ((-n).toNat : Int) = -n := Int.toNat_of_nonneg (by omega)
    have h2 : (((-n).toNat : Nat) : ℚ) = -n := by
      have : (((-n).toNat : Int) : ℚ) = ((-n : Int) : ℚ) := by rw [h1]
      push_cast at this
      exact_mod_cast this
    rw [dblOfNat_exact ⟨-m, e, by simpa using hm, by rw [h2, he]; push_cast; ring⟩, h2]
    ring

/-- A conversion between types that both represent the value keeps it. -/
theorem conv_exact {rnd : ℚ → ℚ} (hrnd : ∀ v, Representable .float v → rnd v = v) {S D : RDT} {v : ℚ} (hs : Representable S v)
    (hd : Representable D v) : conv rnd S D v = .ok v := by
  unfold conv
  by_cases hsd : S = D
  · rw [if_pos hsd]
  rw [if_neg hsd]
  by_cases hD : isIntT D = true
  · rw [if_pos hD]
    obtain ⟨n, rfl, h1, h2⟩ := (rep_int ((isIntT_iff D).1 hD)).1 hd
    unfold castTo
    by_cases hS : isIntT S = true
    · rw [if_pos hS, Int.floor_intCast, Int.emod_eq_of_lt (by omega) (by omega)]
      show Out.ok _ = _
      congr 2
      ring
    · rw [if_neg hS, truncQ_int, if_pos ⟨h1, h2⟩]; rfl
  · rw [if_neg hD]
    by_cases hf : D = .float
    · subst hf
      rw [if_pos rfl, hrnd v hd]
    · rw [if_neg hf]
      have hdd : D = .double := by
        cases D <;> first | rfl | exact absurd rfl hf | exact absurd rfl hD | exact hd.elim
      subst hdd
      unfold asDbl
      by_cases hS : isIntT S = true
      · obtain ⟨n, rfl, h1, h2⟩ := (rep_int ((isIntT_iff S).1 hS)).1 hs
        rw [if_pos hS, Int.floor_intCast, dblOfInt_exact hd]
      · rw [if_neg hS]

theorem mapM_id {f : ℚ → Out ℚ} : ∀ (l : List ℚ), (∀ v ∈ l, f v = .ok v) → l.mapM f = .ok l := by
  intro l h
  have := Raster.mapM_ok f (fun v => v) l h
  simpa using this

/-- The stored bytes. -/
theorem streamBytes_eq {rnd : ℚ → ℚ} (hrnd : ∀ v, Representable .float v → rnd v = v) {T O : RDT} {cells : List ℚ} {n : Int}
    (hn : n = cells.length) (hO : O = T ∨ (O ≠ .unknown ∧ O ≠ .uint64 ∧ O ≠ .int64))
    (hr : ∀ v ∈ cells, Representable T v ∧ Representable O v) :
    streamBytes rnd T O (some cells) n = .ok (cells.flatMap (encode O)) := by
  unfold streamBytes
  rw [if_neg (by omega)]
  by_cases hT : O = T
  · subst hT
    rw [if_pos rfl, readCells_all hn]; rfl
  · rw [if_neg hT]
    rcases hO with h | ⟨h1, h2, h3⟩
    · exact absurd h hT
    rw [if_neg (by rintro (h | h | h) <;> contradiction), readCells_all hn, Out.ok_bind,
      mapM_id cells (fun v hv => conv_exact hrnd (hr v hv).1 (hr v hv).2)]
    rfl

theorem readCellsAs_eq {rnd : ℚ → ℚ} (hrnd : ∀ v, Representable .float v → rnd v = v) {T O : RDT} {cells : List ℚ} {n : Int}
    (hn : n = cells.length) (hpos : cells ≠ []) (hr : ∀ v ∈ cells, Representable T v ∧ Representable O v) :
    readCellsAs rnd T (cells.flatMap (encode O)) n O = .ok (some cells) := by
  subst hn
  have hlen : 0 < cells.length := List.length_pos_of_ne_nil hpos
  have hOu : O ≠ .unknown := by
    rintro rfl
    obtain ⟨v, hv⟩ := List.exists_mem_of_ne_nil _ hpos
    exact (hr v hv).2
  unfold readCellsAs
  rw [if_neg (by omega), if_neg hOu, flatMap_length cells (fun v hv => (hr v hv).2)]
  rw [if_pos]
  · have := decodeAll_encode (t := O) cells [] (fun v hv => (hr v hv).2)
    rw [List.append_nil] at this
    rw [Int.toNat_natCast, this, mapM_id cells (fun v hv => conv_exact hrnd (hr v hv).2 (hr v hv).1)]
    rfl
  · refine ⟨by omega, ?_⟩
    push_cast
    rw [Int.mul_ediv_cancel_left _ (by omega)]

/-! ## Names of types are not numbers -/

theorem sameText_head {s : Str} {c : Char} {t : Str} (h : SameText s (c :: t)) : ∃ a s', s = a :: s' ∧ SameLetter a c := by
  cases s with
  | nil => exact absurd h.1 (by simp)
  | cons a s' => exact ⟨a, s', rfl, h.2 0 a c rfl rfl⟩

theorem dec_head {s : Str} {q : ℚ} (h : DecText s q) : ∃ c r, s = c :: r ∧ c.toNat < 65 := by
  have dig : ∀ {l : Str}, Digits l → l ≠ [] → ∀ r, ∃ c r', l ++ r = c :: r' ∧ c.toNat < 65 := by
    intro l hl hne r
    cases l with
    | nil => exact absurd rfl hne
    | cons c l => exact ⟨c, l ++ r, rfl, by have := hl c List.mem_cons_self; omega⟩
  cases h with
  | whole ip ex e h hi he => exact dig hi h ex
  | point ip fp ex e h hi hf he =>
    cases ip with
    | nil => exact ⟨'.', fp ++ ex, rfl, by decide⟩
    | cons c l => exact dig hi (by simp) _

theorem body_head {s : Str} {x : DVal} (h : NumBody s x) : ∃ c r, s = c :: r ∧
    (c.toNat < 65 ∨ SameLetter c 'n' ∨ (SameLetter c 'i' ∧ (s.length = 3 ∨ s.length = 8))) := by
  cases h with
  | dec s q h =>
    obtain ⟨c, r, e, hc⟩ := dec_head h
    exact ⟨c, r, e, .inl hc⟩
  | hex s q h =>
    cases h <;> exact ⟨'0', _, rfl, .inl (by decide)⟩
  | inf s h =>
    rcases h with h | h
    · obtain ⟨a, r, e, hl⟩ := sameText_head (c := 'i') (t := "nf".toList) h
      exact ⟨a, r, e, .inr (.inr ⟨hl, .inl h.1⟩)⟩
    · obtain ⟨a, r, e, hl⟩ := sameText_head (c := 'i') (t := "nfinity".toList) h
      exact ⟨a, r, e, .inr (.inr ⟨hl, .inr h.1⟩)⟩
  | nan s h =>
    obtain ⟨a, r, e, hl⟩ := sameText_head (c := 'n') (t := "an".toList) h
    exact ⟨a, r, e, .inr (.inl hl)⟩
  | nanSeq s w h hw =>
    obtain ⟨a, r, e, hl⟩ := sameText_head (c := 'n') (t := "an".toList) h
    exact ⟨a, r ++ '(' :: (w ++ [')']), by rw [e]; rfl, .inr (.inl hl)⟩

theorem num_head {s : Str} {x : DVal} (h : NumText s x) : ∃ c r, s = c :: r ∧
    (c.toNat < 65 ∨ SameLetter c 'n' ∨ (SameLetter c 'i' ∧ (s.length = 3 ∨ s.length = 8))) := by
  have ws_head : ∀ {ws : Str}, (∀ c ∈ ws, White c) → ws ≠ [] → ∀ r, ∃ c r', ws ++ r = c :: r' ∧ c.toNat < 65 := by
    intro ws hw hne r
    cases ws with
    | nil => exact absurd rfl hne
    | cons c l =>
      refine ⟨c, l ++ r, rfl, ?_⟩
      rcases hw c List.mem_cons_self with h | h <;> omega
  cases h with
  | plain ws body v hw h =>
    by_cases hn : ws = []
    · subst hn; exact body_head h
    · obtain ⟨c, r, e, hc⟩ := ws_head hw hn body
      exact ⟨c, r, e, .inl hc⟩
  | plus ws body v hw h =>
    by_cases hn : ws = []
    · subst hn; exact ⟨'+', body, rfl, .inl (by decide)⟩
    · obtain ⟨c, r, e, hc⟩ := ws_head hw hn ('+' :: body)
      exact ⟨c, r, e, .inl hc⟩
  | minus ws body v hw h =>
    by_cases hn : ws = []
    · subst hn; exact ⟨'-', body, rfl, .inl (by decide)⟩
    · obtain ⟨c, r, e, hc⟩ := ws_head hw hn ('-' :: body)
      exact ⟨c, r, e, .inl hc⟩

theorem sameLetter_upper {a c : Char} (h : SameLetter a c) (hc : 65 ≤ c.toNat) (hc' : c.toNat ≤ 90) :
    a.toNat = c.toNat ∨ a.toNat = c.toNat + 32 := by
  rcases h with h | h | h
  · left; rw [h]
  · right; omega
  · omega

theorem sameLetter_lower {a c : Char} (h : SameLetter a c) (hc : 97 ≤ c.toNat) (hc' : c.toNat ≤ 122) :
    a.toNat = c.toNat ∨ a.toNat + 32 = c.toNat := by
  rcases h with h | h | h
  · left; rw [h]
  · omega
  · right; omega

/-- The names of types: first letter and length. -/
theorem name_head : ∀ t : RDT, ∀ n ∈ typeNames t, ∃ c r, n = c :: r ∧ 65 ≤ c.toNat ∧ c.toNat ≤ 90 ∧ c.toNat ≠ 78 ∧
    (c.toNat = 73 → n.length ≠ 3 ∧ n.length ≠ 8) := by
  intro t
  cases t <;> intro n hn <;> simp only [typeNames, List.mem_cons, List.not_mem_nil, or_false] at hn <;>
    first
    | exact hn.elim
    | (rcases hn with rfl | rfl | rfl <;> exact ⟨_, _, rfl, by decide⟩)
    | (rcases hn with rfl | rfl <;> exact ⟨_, _, rfl, by decide⟩)

theorem type_not_number {ty : Str} {O : RDT} (hO : O ≠ .unknown) (h : stringToRdt ty = O) (x : DVal) : ¬ NumText ty x := by
  intro hx
  obtain ⟨n, hn, hs⟩ := (C25_names ty O hO).1 h
  obtain ⟨c, r, rfl, h1, h2, h3, h4⟩ := name_head O n hn
  obtain ⟨a, s', e, hl⟩ := sameText_head hs
  obtain ⟨b, r', e', hb⟩ := num_head hx
  rw [e] at e'
  injection e' with e1 e2
  subst e1
  have hl' := sameLetter_upper hl h1 h2
  rcases hb with hb | hb | ⟨hb, hlen⟩
  · omega
  · have := sameLetter_lower hb (by decide) (by decide)
    have e3 : ('n' : Char).toNat = 110 := by decide
    omega
  · have := sameLetter_lower hb (by decide) (by decide)
    have e3 : ('i' : Char).toNat = 105 := by decide
    have hc : c.toNat = 73 := by omega
    have := h4 hc
    have e4 := hs.1
    omega

/-! ## Reading the metadata -/

theorem fold_spec : ∀ (d : BDoc) (h : HMap) (s : SMap), (d.map (·.1)).Nodup →
    (∀ k b x, (k, b) ∈ d → (h k).isSome = true → bsonNumeric b = some x → (d.foldl readElem (h, s)).1 k = some x) ∧
    (∀ k b, (k, b) ∈ d → (h k).isSome = false → (d.foldl readElem (h, s)).2 k = some (bsonString b)) ∧
    (∀ k, k ∉ d.map (·.1) → (d.foldl readElem (h, s)).1 k = h k ∧ (d.foldl readElem (h, s)).2 k = s k) := by
  intro d
  induction d with
  | nil => intro h s _; exact ⟨by simp, by simp, fun k _ => ⟨rfl, rfl⟩⟩
  | cons e d ih =>
    intro h s hnd
    obtain ⟨k0, b0⟩ := e
    rw [List.map_cons, List.nodup_cons] at hnd
    obtain ⟨hk0, hnd⟩ := hnd
    simp only at hk0
    rw [List.foldl_cons]
    obtain ⟨⟨h1, s1⟩, hr⟩ : ∃ p, readElem (h, s) (k0, b0) = p := ⟨_, rfl⟩
    rw [hr]
    obtain ⟨i1, i2, i3⟩ := ih h1 s1 hnd
    have hsome : ∀ k, (h1 k).isSome = (h k).isSome := by
      intro k
      unfold readElem at hr
      dsimp only at hr
      split_ifs at hr with hc
      · split at hr
        · rw [Prod.mk.injEq] at hr
          rw [← hr.1]
          unfold upd
          by_cases hk : k = k0
          · subst hk; rw [if_pos rfl, hc]; rfl
          · rw [if_neg hk]
        · rw [Prod.mk.injEq] at hr; rw [hr.1]
      · rw [Prod.mk.injEq] at hr; rw [hr.1]
    have hother : ∀ k, k ≠ k0 → h1 k = h k ∧ s1 k = s k := by
      intro k hk
      unfold readElem at hr
      dsimp only at hr
      split_ifs at hr with hc
      · split at hr
        · rw [Prod.mk.injEq] at hr
          rw [← hr.1, ← hr.2]
          exact ⟨by unfold upd; rw [if_neg hk], rfl⟩
        · rw [Prod.mk.injEq] at hr; rw [hr.1, hr.2]; exact ⟨rfl, rfl⟩
      · rw [Prod.mk.injEq] at hr
        rw [← hr.1, ← hr.2]
        exact ⟨rfl, by unfold upd; rw [if_neg hk]⟩
    refine ⟨?_, ?_, ?_⟩
    · intro k b x hm hs hx
      rcases List.mem_cons.1 hm with he | hm
      · rw [Prod.mk.injEq] at he
        obtain ⟨rfl, rfl⟩ := he
        rw [(i3 k hk0).1]
        unfold readElem at hr
        dsimp only at hr
        rw [if_pos hs, hx] at hr
        simp only [Prod.mk.injEq] at hr
        rw [← hr.1]
        unfold upd; rw [if_pos rfl]
      · exact i1 k b x hm (by rw [hsome]; exact hs) hx
    · intro k b hm hs
      rcases List.mem_cons.1 hm with he | hm
      · rw [Prod.mk.injEq] at he
        obtain ⟨rfl, rfl⟩ := he
        rw [(i3 k hk0).2]
        unfold readElem at hr
        dsimp only at hr
        rw [if_neg (by rw [hs]; simp)] at hr
        simp only [Prod.mk.injEq] at hr
        rw [← hr.2]
        unfold upd; rw [if_pos rfl]
      · exact i2 k b hm (by rw [hsome]; exact hs)
    · intro k hk
      rw [List.map_cons, List.mem_cons, not_or] at hk
      obtain ⟨a, b⟩ := i3 k hk.2
      obtain ⟨c, d'⟩ := hother k hk.1
      exact ⟨a.trans c, b.trans d'⟩

theorem headerVal_ok {k : Str} {q : ℚ} (h : k = kNoData ∨ ∀ z : Int, q = z → -(2 ^ 31) ≤ z ∧ z < 2 ^ 31) :
    ∃ b, headerVal k (.fin q) = .ok b ∧ bsonNumeric b = some (.fin q) := by
  unfold headerVal
  by_cases hm : stringMatch kNoData k = true
  · rw [if_pos hm]; exact ⟨_, rfl, rfl⟩
  · rw [if_neg hm]
    dsimp only
    rcases h with h | h
    · exact absurd (by rw [h]; decide) hm
    · by_cases hd : q.den = 1
      · have hq := (Rat.den_eq_one_iff q).1 hd
        have hz := h q.num hq.symm
        rw [if_pos hd, if_pos]
        · refine ⟨_, rfl, ?_⟩
          show some (DVal.fin _) = _
          rw [hq]
        · rw [← hq]
          exact ⟨by exact_mod_cast hz.1, by exact_mod_cast hz.2⟩
      · rw [if_neg hd]; exact ⟨_, rfl, rfl⟩

theorem header_cstr {k : Str} (hk : k ∈ headerKeys) : cstr k = k := by
  simp only [headerKeys, List.mem_cons, List.not_mem_nil, or_false] at hk
  rcases hk with rfl | rfl | rfl | rfl | rfl | rfl | rfl | rfl <;> decide

theorem headerDoc_ok : ∀ (hdr : NumMap), (∀ e ∈ hdr, e.1 ∈ headerKeys) →
    (∀ k x, (k, x) ∈ hdr → ∃ q, x = .fin q ∧ (k = kNoData ∨ ∀ z : Int, q = z → -(2 ^ 31) ≤ z ∧ z < 2 ^ 31)) →
    ∃ d, headerDoc hdr = .ok d ∧ d.map (·.1) = hdr.map (·.1) ∧ ∀ k x, (k, x) ∈ hdr → ∃ b, (k, b) ∈ d ∧ bsonNumeric b = some x
  | [], _, _ => ⟨[], rfl, rfl, by simp⟩
  | (k, x) :: hdr, hk, hv => by
    obtain ⟨q, rfl, hq⟩ := hv k x List.mem_cons_self
    obtain ⟨b, e1, e2⟩ := headerVal_ok hq
    obtain ⟨d, e3, e4, e5⟩ := headerDoc_ok hdr (fun e he => hk e (List.mem_cons_of_mem _ he))
      (fun k x h => hv k x (List.mem_cons_of_mem _ h))
    have hc : cstr k = k := header_cstr (hk (k, .fin q) List.mem_cons_self)
    refine ⟨(k, b) :: d, ?_, by simp [e4], ?_⟩
    · simp only [headerDoc]
      rw [e1, Out.ok_bind, e3, Out.ok_bind, hc]; rfl
    · intro k' x' h
      rcases List.mem_cons.1 h with h | h
      · rw [Prod.mk.injEq] at h
        obtain ⟨rfl, rfl⟩ := h
        exact ⟨b, List.mem_cons_self, e2⟩
      · obtain ⟨b', h1, h2⟩ := e5 k' x' h
        exact ⟨b', List.mem_cons_of_mem _ h1, h2⟩

end Gfs
end CCGL
