import Verif.Model.Bytes
import Verif.Props.Geotiff
/-!
# Every cell of every type is recovered from its bytes
-/
namespace CCGL
namespace Gfs
open Spec Gtiff

theorem leBytes_length (k n : Nat) : (leBytes k n).length = k := by
  induction k generalizing n with
  | zero => rfl
  | succ k ih => simp [leBytes, ih]

theorem leNat_leBytes (k n : Nat) : leNat (leBytes k n) = n % 256 ^ k := by
  induction k generalizing n with
  | zero => simp [leBytes, leNat, Nat.mod_one]
  | succ k ih =>
    simp only [leBytes, leNat, ih, Fin.val_ofNat]
    rw [pow_succ, Nat.mul_comm (256 ^ k) 256, Nat.mod_mul]

theorem pow256 (k : Nat) : 256 ^ k = 2 ^ (8 * k) := by rw [pow_mul]; norm_num

theorem signed_back (X : Nat) (n : Int) (h1 : -(X : Int) ≤ 2 * n) (h2 : 2 * n < X) :
    (if 2 * (n % (X : Int)).toNat < X then (((n % (X : Int)).toNat : Nat) : ℚ) else (((n % (X : Int)).toNat : Nat) : ℚ) - X) = n := by
  by_cases h : 0 ≤ n
  · rw [Int.emod_eq_of_lt h (by omega), if_pos (by omega)]
    exact_mod_cast Int.toNat_of_nonneg h
  · have e : n % (X : Int) = n + X := by
      rw [← Int.add_emod_right, Int.emod_eq_of_lt (by omega) (by omega)]
    rw [e, if_neg (by omega)]
    have : (((n + X).toNat : Nat) : ℚ) = ((n + X : Int) : ℚ) := by
      exact_mod_cast Int.toNat_of_nonneg (by omega)
    rw [this]; push_cast; ring

theorem unsigned_back (X : Nat) (n : Int) (h1 : 0 ≤ n) (h2 : n < X) : (((n % (X : Int)).toNat : Nat) : ℚ) = n := by
  rw [Int.emod_eq_of_lt h1 h2]
  exact_mod_cast Int.toNat_of_nonneg h1

theorem decode_signed {t : RDT} (ht : t = .int8 ∨ t = .int16 ∨ t = .int32 ∨ t = .int64) (bs : List Byte) :
    decode t bs = if 2 * leNat bs < 2 ^ (8 * size t) then (leNat bs : ℚ) else (leNat bs : ℚ) - 2 ^ (8 * size t) := by
  rcases ht with rfl | rfl | rfl | rfl <;> rfl

theorem decode_unsigned {t : RDT} (ht : t = .uint8 ∨ t = .uint16 ∨ t = .uint32 ∨ t = .uint64) (bs : List Byte) :
    decode t bs = leNat bs := by
  rcases ht with rfl | rfl | rfl | rfl <;> rfl

theorem range_signed {t : RDT} (ht : t = .int8 ∨ t = .int16 ∨ t = .int32 ∨ t = .int64) {n : Int} (h1 : lo t ≤ n) (h2 : n ≤ hi t) :
    -((2 ^ (8 * size t) : Nat) : Int) ≤ 2 * n ∧ 2 * n < ((2 ^ (8 * size t) : Nat) : Int) := by
  rcases ht with rfl | rfl | rfl | rfl <;> simp only [lo, hi, size] at * <;> norm_num at * <;> omega

theorem range_unsigned {t : RDT} (ht : t = .uint8 ∨ t = .uint16 ∨ t = .uint32 ∨ t = .uint64) {n : Int} (h1 : lo t ≤ n) (h2 : n ≤ hi t) :
    0 ≤ n ∧ n < ((2 ^ (8 * size t) : Nat) : Int) := by
  rcases ht with rfl | rfl | rfl | rfl <;> simp only [lo, hi, size] at * <;> norm_num at * <;> omega

theorem decode_bytes_int {t : RDT} (ht : IsIntType t) {v : ℚ} (hv : Representable t v) :
    decode t (encode t v) = v := by
  have hI := (isIntT_iff t).2 ht
  obtain ⟨n, rfl, h1, h2⟩ := (rep_int ht).1 hv
  unfold encode
  rw [if_pos hI]
  have hpos : (0 : Int) < 2 ^ (8 * size t) := by positivity
  have hm0 := Int.emod_nonneg n hpos.ne'
  have hml := Int.emod_lt_of_pos n hpos
  have hn : leNat (leBytes (size t) (n % 2 ^ (8 * size t)).toNat) = (n % 2 ^ (8 * size t)).toNat := by
    rw [leNat_leBytes, pow256]
    apply Nat.mod_eq_of_lt
    zify
    rw [Int.toNat_of_nonneg hm0]; exact hml
  simp only [Int.floor_intCast]
  have hX : ((2 : Int) ^ (8 * size t)) = ((2 ^ (8 * size t) : Nat) : Int) := by push_cast; rfl
  rw [hX] at hn ⊢
  have hcases : (t = .int8 ∨ t = .int16 ∨ t = .int32 ∨ t = .int64) ∨ (t = .uint8 ∨ t = .uint16 ∨ t = .uint32 ∨ t = .uint64) := by
    obtain ⟨a, b, c⟩ := ht
    cases t <;> simp at a b c ⊢
  rcases hcases with hc | hc
  · obtain ⟨g1, g2⟩ := range_signed hc h1 h2
    rw [decode_signed hc, hn]
    have := signed_back (2 ^ (8 * size t)) n g1 g2
    rw [show (((2 ^ (8 * size t) : Nat) : ℚ)) = 2 ^ (8 * size t) by push_cast; rfl] at this
    exact this
  · obtain ⟨g1, g2⟩ := range_unsigned hc h1 h2
    rw [decode_unsigned hc, hn]
    exact unsigned_back _ n g1 g2

theorem normalise (p : Nat) (emin : Int) : ∀ (k : Nat) (M : Nat) (e : Int), (e - emin).toNat = k → emin ≤ e → M < 2 ^ (p + 1) →
    ∃ (M' : Nat) (e' : Int), (M : ℚ) * (2 : ℚ) ^ e = (M' : ℚ) * (2 : ℚ) ^ e' ∧ M' < 2 ^ (p + 1) ∧ emin ≤ e' ∧ e' ≤ e ∧
      (2 ^ p ≤ M' ∨ e' = emin) := by
  intro k
  induction k with
  | zero => intro M e hk he hM; exact ⟨M, e, rfl, hM, he, le_refl _, .inr (by omega)⟩
  | succ k ih =>
    intro M e hk he hM
    by_cases h : 2 ^ p ≤ M
    · exact ⟨M, e, rfl, hM, he, le_refl _, .inl h⟩
    · obtain ⟨M', e', h1, h2, h3, h4, h5⟩ := ih (2 * M) (e - 1) (by omega) (by omega) (by rw [pow_succ]; omega)
      refine ⟨M', e', ?_, h2, h3, by omega, h5⟩
      rw [← h1]
      have : (2 : ℚ) ^ e = 2 * (2 : ℚ) ^ (e - 1) := by
        rw [← zpow_one_add₀ (by norm_num)]; congr 1; ring
      rw [this]; push_cast; ring

theorem ieee_surj (p w : Nat) (hw : 2 ≤ w) (emin : Int) (m : Int) (e : Int) (hm : m.natAbs < 2 ^ (p + 1)) (h1 : emin ≤ e)
    (h2 : e ≤ emin + 2 ^ w - 3) : ∃ n, n < 2 ^ (p + w + 1) ∧ ieee p w emin n = (m : ℚ) * (2 : ℚ) ^ e := by
  have hw4 : 4 ≤ 2 ^ w := by
    calc 4 = 2 ^ 2 := rfl
      _ ≤ 2 ^ w := Nat.pow_le_pow_right (by omega) hw
  obtain ⟨M, e', e1, hM, g1, g2, g3⟩ := normalise p emin _ m.natAbs e rfl h1 hm
  have hP : 0 < 2 ^ p := by positivity
  have hPw : 2 ^ (p + w) = 2 ^ p * 2 ^ w := pow_add _ _ _
  have hPw1 : 2 ^ (p + w + 1) = 2 * (2 ^ p * 2 ^ w) := by rw [pow_succ, hPw]; ring
  have hp1 : 2 ^ (p + 1) = 2 * 2 ^ p := by rw [pow_succ]; ring
  -- the magnitude
  have mag : ∃ n0, n0 < 2 ^ p * 2 ^ w ∧ ∀ s, s < 2 → ieee p w emin (n0 + s * (2 ^ p * 2 ^ w)) =
      if s = 0 then (M : ℚ) * (2 : ℚ) ^ e' else -((M : ℚ) * (2 : ℚ) ^ e') := by
    have field : ∀ E R : Nat, E < 2 ^ w → R < 2 ^ p → ∀ s,
        (R + 2 ^ p * E + s * (2 ^ p * 2 ^ w)) % 2 ^ p = R ∧
        (R + 2 ^ p * E + s * (2 ^ p * 2 ^ w)) / 2 ^ p % 2 ^ w = E ∧
        (R + 2 ^ p * E + s * (2 ^ p * 2 ^ w)) / 2 ^ (p + w) = s := by
      intro E R hE hR s
      have e1 : R + 2 ^ p * E + s * (2 ^ p * 2 ^ w) = R + 2 ^ p * (E + 2 ^ w * s) := by ring
      have e2 : (R + 2 ^ p * (E + 2 ^ w * s)) / 2 ^ p = E + 2 ^ w * s := by
        rw [Nat.add_mul_div_left _ _ hP, Nat.div_eq_of_lt hR, Nat.zero_add]
      refine ⟨?_, ?_, ?_⟩
      · rw [e1, Nat.add_mul_mod_self_left, Nat.mod_eq_of_lt hR]
      · rw [e1, e2, Nat.add_mul_mod_self_left, Nat.mod_eq_of_lt hE]
      · rw [e1, hPw, ← Nat.div_div_eq_div_mul, e2, Nat.add_mul_div_left _ _ (by positivity), Nat.div_eq_of_lt hE, Nat.zero_add]
    by_cases hb : 2 ^ p ≤ M
    · obtain ⟨E, hE⟩ := Int.eq_ofNat_of_zero_le (show 0 ≤ e' - emin + 1 by omega)
      have hElt : E < 2 ^ w - 1 := by
        have : (E : Int) < 2 ^ w - 1 := by omega
        zify
        rw [Nat.cast_sub (by omega)]
        push_cast; exact this
      refine ⟨(M - 2 ^ p) + 2 ^ p * E, ?_, ?_⟩
      · have : 2 ^ p * (E + 1) ≤ 2 ^ p * 2 ^ w := Nat.mul_le_mul_left _ (by omega)
        rw [Nat.mul_add, Nat.mul_one] at this
        omega
      · intro s _
        obtain ⟨f1, f2, f3⟩ := field E (M - 2 ^ p) (by omega) (by omega) s
        unfold ieee
        dsimp only
        rw [f1, f2, f3, if_neg (show ¬ E = 2 ^ w - 1 by omega), if_neg (show ¬ E = 0 by omega)]
        have a1 : 2 ^ p + (M - 2 ^ p) = M := by omega
        have a2 : emin + (E : Int) - 1 = e' := by omega
        rw [a1, a2]
    · have he : e' = emin := g3.resolve_left hb
      refine ⟨M, ?_, ?_⟩
      · have : 2 ^ p * 1 ≤ 2 ^ p * 2 ^ w := Nat.mul_le_mul_left _ (by omega)
        omega
      · intro s _
        obtain ⟨f1, f2, f3⟩ := field 0 M (by omega) (by omega) s
        rw [Nat.mul_zero, Nat.add_zero] at f1 f2 f3
        unfold ieee
        dsimp only
        rw [f1, f2, f3, if_neg (show ¬ 0 = 2 ^ w - 1 by omega), if_pos rfl, he]
  obtain ⟨n0, hn0, hval⟩ := mag
  rcases Int.natAbs_eq m with hs | hs
  · refine ⟨n0 + 0 * (2 ^ p * 2 ^ w), by rw [hPw1]; omega, ?_⟩
    rw [hval 0 (by omega), if_pos rfl, ← e1, hs]
    simp
  · refine ⟨n0 + 1 * (2 ^ p * 2 ^ w), by rw [hPw1]; omega, ?_⟩
    rw [hval 1 (by omega), if_neg (by omega), ← e1, hs]
    simp

theorem encode_decode {t : RDT} {v : ℚ} (hv : Representable t v) : (encode t v).length = size t ∧ decode t (encode t v) = v := by
  by_cases ht : IsIntType t
  · refine ⟨?_, decode_bytes_int ht hv⟩
    unfold encode
    rw [if_pos ((isIntT_iff t).2 ht), leBytes_length]
  · have hI : isIntT t = false := by rw [Bool.eq_false_iff]; exact fun h => ht ((isIntT_iff t).1 h)
    have hex : ∃ bs : List Byte, bs.length = size t ∧ decode t bs = v := by
      cases t <;> simp [isIntT] at hI
      · exact absurd hv id
      · obtain ⟨m, e, h1, h2, h3, rfl⟩ := hv
        obtain ⟨n, hn, e1⟩ := ieee_surj 23 8 (by norm_num) (-149) m e h1 h2 (by norm_num; exact h3)
        refine ⟨leBytes 4 n, leBytes_length _ _, ?_⟩
        unfold decode
        dsimp only
        rw [leNat_leBytes, Nat.mod_eq_of_lt (by rw [pow256]; exact hn), e1]
      · obtain ⟨m, e, h1, h2, h3, rfl⟩ := hv
        obtain ⟨n, hn, e1⟩ := ieee_surj 52 11 (by norm_num) (-1074) m e h1 h2 (by norm_num; exact h3)
        refine ⟨leBytes 8 n, leBytes_length _ _, ?_⟩
        unfold decode
        dsimp only
        rw [leNat_leBytes, Nat.mod_eq_of_lt (by rw [pow256]; exact hn), e1]
    unfold encode
    rw [hI, if_neg (by simp)]
    unfold encodeF
    rw [dif_pos hex]
    exact hex.choose_spec

theorem encode_length {t : RDT} {v : ℚ} (hv : Representable t v) : (encode t v).length = size t := (encode_decode hv).1

theorem flatMap_length {t : RDT} : ∀ (l : List ℚ), (∀ v ∈ l, Representable t v) → (l.flatMap (encode t)).length = l.length * size t
  | [], _ => by simp
  | v :: l, h => by
    rw [List.flatMap_cons, List.length_append, encode_length (h v List.mem_cons_self),
      flatMap_length l (fun x hx => h x (List.mem_cons_of_mem _ hx)), List.length_cons]
    ring

/-- Cells read back from the bytes of an array (which may be followed by more bytes). -/
theorem decodeAll_encode {t : RDT} : ∀ (l : List ℚ) (rest : List Byte), (∀ v ∈ l, Representable t v) →
    decodeAll t l.length (l.flatMap (encode t) ++ rest) = l
  | [], _, _ => rfl
  | v :: l, rest, h => by
    obtain ⟨h1, h2⟩ := encode_decode (h v List.mem_cons_self)
    rw [List.flatMap_cons, List.length_cons, decodeAll, List.append_assoc, List.take_left' h1, List.drop_left' h1, h2,
      decodeAll_encode l rest (fun x hx => h x (List.mem_cons_of_mem _ hx))]

end Gfs
end CCGL
