import Verif.Spec.ArrayText
import Verif.Lemmas.AscWrite
/-! Lemmas for the text files of arrays. -/
namespace CCGL
namespace ArrText
open Spec

variable {τ : Type}

theorem cells_holds (data : Ptr τ) (n : Int) (vs : List τ) (h : Holds data n vs) : cells data n = .ok vs := by
  obtain ⟨rest, rfl, hl⟩ := h
  have hn : n.toNat = vs.length := by omega
  unfold cells
  rw [hn]
  cases vs with
  | nil => rfl
  | cons v0 vs0 =>
    generalize hvs : v0 :: vs0 = vs at *
    have h1 := Raster.mapM_ok (fun (i : Nat) => readAt (some (vs ++ rest)) (i : Int)) (fun (i : Nat) => vs[i]?.getD v0) (List.range vs.length)
      (by
        intro i hi
        rw [List.mem_range] at hi
        have e : (vs ++ rest)[i]? = some vs[i] := by rw [List.getElem?_append_left hi, List.getElem?_eq_getElem hi]
        have e2 : vs[i]? = some vs[i] := List.getElem?_eq_getElem hi
        simp only [readAt, Int.natCast_nonneg, if_true, Int.toNat_natCast, e, e2, Option.getD_some])
    rw [h1]
    congr 1
    apply List.ext_getElem?
    intro i
    by_cases hi : i < vs.length
    · have e2 : vs[i]? = some vs[i] := List.getElem?_eq_getElem hi
      simp [hi]
    · simp only [List.getElem?_map, List.getElem?_eq_none (Nat.le_of_not_lt hi)]
      rw [List.getElem?_eq_none (by simpa using hi)]; rfl

theorem dropWhile_white (s t : Str) (h : ∀ c ∈ s, White c) (ht : ∀ c, t.head? = some c → ¬ White c) :
    (s ++ t).dropWhile isSpaceC = t := by
  induction s with
  | nil =>
    cases t with
    | nil => rfl
    | cons a t => rw [List.nil_append, List.dropWhile_cons, (isSpaceC_false_iff a).2 (ht a rfl)]; rfl
  | cons a s ih =>
    have : isSpaceC a = true := by
      rcases Bool.eq_false_or_eq_true (isSpaceC a) with q | q
      · exact q
      · exact absurd (h a (by simp)) ((isSpaceC_false_iff a).1 q)
    rw [List.cons_append, List.dropWhile_cons, this, if_pos rfl, ih (fun c hc => h c (by simp [hc]))]

theorem dropWhile_allwhite (s : Str) (h : ∀ c ∈ s, White c) : s.dropWhile isSpaceC = [] := by
  have := dropWhile_white s [] h (by simp)
  simpa using this

theorem readWord_word (pre w rest old : Str) (hp : ∀ c ∈ pre, White c) (hne : w ≠ []) (hw : ∀ c ∈ w, ¬ White c)
    (hr : ∀ c, rest.head? = some c → White c) : readWord ⟨pre ++ w ++ rest, false⟩ old = (w, ⟨rest, false⟩) := by
  have h1 : (pre ++ w ++ rest).dropWhile isSpaceC = w ++ rest := by
    rw [List.append_assoc]
    refine dropWhile_white pre (w ++ rest) hp ?_
    intro c hc
    obtain ⟨a, w', rfl⟩ := List.exists_cons_of_ne_nil hne
    simp at hc; subst hc
    exact hw _ (by simp)
  obtain ⟨h2, h3⟩ := takeWhile_word w rest hw hr
  have h4 : w ++ rest ≠ [] := by simp [hne]
  simp only [readWord, h1, h4, if_false, h2, h3, Bool.false_eq_true]

theorem readWord_white (s old : Str) (h : ∀ c ∈ s, White c) : readWord ⟨s, false⟩ old = (old, ⟨[], true⟩) := by
  simp only [readWord, dropWhile_allwhite s h, if_true, Bool.false_eq_true, if_false]

theorem digits_split (ds rest : Str) (hd : ∀ c ∈ ds, 48 ≤ c.toNat ∧ c.toNat ≤ 57) (hr : ∀ c, rest.head? = some c → White c) :
    (ds ++ rest).takeWhile isDigitC = ds ∧ (ds ++ rest).dropWhile isDigitC = rest := by
  induction ds with
  | nil =>
    cases rest with
    | nil => exact ⟨rfl, rfl⟩
    | cons a t =>
      have hw := hr a rfl
      have : isDigitC a = false := by
        rcases Bool.eq_false_or_eq_true (isDigitC a) with q | q
        · rw [isDigitC_iff] at q; unfold White at hw; omega
        · exact q
      simp [this]
  | cons c ds ih =>
    have hc := (isDigitC_iff c).2 (hd c (by simp))
    obtain ⟨h1, h2⟩ := ih (fun x hx => hd x (by simp [hx]))
    simp [hc, h1, h2]

theorem digits_val (n : Nat) : digitsVal 0 (natToDec n) = n := by
  rw [digitsVal_eq 0 _ (natToDec_digits n), natToDec_val]

theorem readInt_extracts (i : Int) (h : CCGL.Spec.Int32 i) : Extracts readInt (intToDec i) i := by
  intro pre rest old hp hr
  obtain ⟨h1, h2⟩ := h
  rcases i with n | n
  · have hd := natToDec_digits n
    obtain ⟨c, t, hct⟩ := List.exists_cons_of_ne_nil (natToDec_ne_nil n)
    have hc := hd c (by simp [hct])
    have e1 : (pre ++ natToDec n ++ rest).dropWhile isSpaceC = natToDec n ++ rest := by
      rw [List.append_assoc]
      refine dropWhile_white pre _ hp ?_
      intro a ha
      rw [hct] at ha; simp at ha; subst ha
      unfold White; omega
    have hm : c ≠ '-' := by rintro rfl; revert hc; decide
    have hpl : c ≠ '+' := by rintro rfl; revert hc; decide
    have e2 : signPart (natToDec n ++ rest) = (false, 0, natToDec n ++ rest) := by
      rw [hct]; simp [signPart, hm, hpl]
    obtain ⟨e3, e4⟩ := digits_split (natToDec n) rest hd hr
    have e5 : natToDec n ++ rest ≠ [] := by simp [natToDec_ne_nil]
    have a1 : ¬ ((n : Int) < -(2 ^ 31)) := by omega
    have a2 : ¬ ((2 : Int) ^ 31 - 1 < (n : Int)) := by
      have : (Int.ofNat n : Int) = (n : Int) := rfl
      omega
    show readInt ⟨pre ++ natToDec n ++ rest, false⟩ old = _
    simp only [readInt, e1, e5, if_false, e2, e3, e4, natToDec_ne_nil, digits_val, Bool.false_eq_true, a1, a2]
    rfl
  · have hd := natToDec_digits (n + 1)
    have e1 : (pre ++ ('-' :: natToDec (n + 1)) ++ rest).dropWhile isSpaceC = '-' :: (natToDec (n + 1) ++ rest) := by
      rw [List.append_assoc]
      refine dropWhile_white pre _ hp ?_
      intro a ha
      simp at ha; subst ha
      unfold White; decide
    have e2 : signPart ('-' :: (natToDec (n + 1) ++ rest)) = (true, 1, natToDec (n + 1) ++ rest) := rfl
    obtain ⟨e3, e4⟩ := digits_split (natToDec (n + 1)) rest hd hr
    have a1 : ¬ (-((n + 1 : Nat) : Int) < -(2 ^ 31)) := by
      have : Int.negSucc n = -((n + 1 : Nat) : Int) := rfl
      omega
    have a2 : ¬ ((2 : Int) ^ 31 - 1 < -((n + 1 : Nat) : Int)) := by omega
    show readInt ⟨pre ++ ('-' :: natToDec (n + 1)) ++ rest, false⟩ old = _
    simp only [readInt, e1, if_false, e2, e3, e4, natToDec_ne_nil, digits_val, Bool.false_eq_true, a1, a2, if_true, reduceCtorEq]
    rfl

theorem readInt_stops : StopsAtEnd readInt where
  white s old h := by simp only [readInt, dropWhile_allwhite s h, if_true, Bool.false_eq_true, if_false]
  failed s old := by simp only [readInt, if_true]

/-- Taking one word off a stream. -/
theorem isWords_cons {s w : Str} {ws : List Str} (h : IsWords s (w :: ws)) :
    ∃ pre rest, s = pre ++ w ++ rest ∧ (∀ c ∈ pre, White c) ∧ w ≠ [] ∧ (∀ c ∈ w, ¬ White c) ∧
      (∀ c, rest.head? = some c → White c) ∧ IsWords rest ws := by
  cases h with
  | cons pre w rest ws hp hne hw hr hws => exact ⟨pre, rest, rfl, hp, hne, hw, hr, hws⟩

theorem readMany_words (get : In → Option τ → Option τ × In) (ts : List Str) (vs : List τ)
    (ht : List.Forall₂ (Extracts get) ts vs) (s : Str) (more : List Str) (h : IsWords s (ts ++ more)) :
    ∃ rest, readMany get vs.length ⟨s, false⟩ = (vs.map some, ⟨rest, false⟩) ∧ IsWords rest more := by
  induction ht generalizing s with
  | nil => exact ⟨s, rfl, h⟩
  | cons hx _ ih =>
    obtain ⟨pre, rest, rfl, hp, _, _, hr, hws⟩ := isWords_cons h
    obtain ⟨r, h1, h2⟩ := ih rest hws
    refine ⟨r, ?_, h2⟩
    simp only [List.length_cons, readMany, hx pre rest none hp hr, h1, List.map_cons]

theorem readMany_failed (get : In → Option τ → Option τ × In) (hs : StopsAtEnd get) (k : Nat) (s : Str) :
    readMany get k ⟨s, true⟩ = (List.replicate k none, ⟨s, true⟩) := by
  induction k with
  | zero => rfl
  | succ k ih => simp only [readMany, hs.failed, ih, List.replicate_succ]

theorem isWords_white {s : Str} (h : IsWords s []) : ∀ c ∈ s, White c := by
  cases h with
  | nil _ h => exact h

theorem readMany_short (get : In → Option τ → Option τ × In) (hs : StopsAtEnd get) (ts : List Str) (vs : List τ)
    (ht : List.Forall₂ (Extracts get) ts vs) (s : Str) (h : IsWords s ts) (k : Nat) :
    (readMany get (vs.length + k) ⟨s, false⟩).1 = vs.map some ++ List.replicate k none := by
  induction ht generalizing s with
  | nil =>
    cases k with
    | zero => rfl
    | succ k =>
      have e : ([] : List τ).length + (k + 1) = k + 1 := by simp
      rw [e]
      simp only [readMany, hs.white s none (isWords_white h), readMany_failed get hs, List.map_nil, List.nil_append, List.replicate_succ]
  | cons hx _ ih =>
    obtain ⟨pre, rest, rfl, hp, _, _, hr, hws⟩ := isWords_cons h
    have h1 := ih rest hws
    rw [List.length_cons, Nat.add_right_comm]
    simp only [readMany, hx pre rest none hp hr, List.map_cons, List.cons_append, h1]

theorem readRows_words (get : In → Option τ → Option τ × In) (ofInt : Int → τ) (ws : List Str) (rows : List (List τ))
    (hw : RowWords get ws rows) (s : Str) (more : List Str) (h : IsWords s (ws ++ more)) (old : Option Int) :
    readRows get ofInt rows.length ⟨s, false⟩ old =
      .ok (rows.map (fun vs => some (ofInt vs.length) :: vs.map some)) := by
  induction hw generalizing s old with
  | nil => rfl
  | cons k ts ws vs rows hk hl ht _ ih =>
    have e : k :: ts ++ ws ++ more = k :: (ts ++ (ws ++ more)) := by simp
    rw [e] at h
    obtain ⟨pre, rest, rfl, hp, _, _, hr, hws⟩ := isWords_cons h
    have hk' := (isDecInt_iff k _).1 hk
    subst hk'
    have hi := readInt_extracts (vs.length : Int) (by unfold CCGL.Spec.Int32; omega) pre rest old hp hr
    obtain ⟨r, h1, h2⟩ := readMany_words get ts vs ht rest _ hws
    have h3 := ih r h2 (some (vs.length : Int))
    have a1 : ¬ ((vs.length : Int) < -1) := by omega
    have a2 : ¬ ((vs.length : Int) = -1 ∨ (vs.length : Int) = 2 ^ 31 - 1) := by omega
    simp only [List.length_cons, readRows, hi, a1, a2, if_false, Int.toNat_natCast, h1, h3, Out.ok_bind, Out.pure_eq, List.map_cons]

end ArrText
end CCGL
