import Verif.Model.Dec
import Verif.Spec.Str
/-!
# Number texts, specified by their grammar (ISO C `strtod`)
-/
namespace CCGL.Spec

def Digits (s : List Char) : Prop := ∀ c ∈ s, 48 ≤ c.toNat ∧ c.toNat ≤ 57
/-- Value of a digit string. -/
def decNum (s : List Char) : Nat := s.foldl (fun a c => 10 * a + (c.toNat - 48)) 0

def HexDigits (s : List Char) : Prop := ∀ c ∈ s, (48 ≤ c.toNat ∧ c.toNat ≤ 57) ∨
  (97 ≤ c.toNat ∧ c.toNat ≤ 102) ∨ (65 ≤ c.toNat ∧ c.toNat ≤ 70)
def hexNum (s : List Char) : Nat := s.foldl (fun a c => 16 * a +
  (if c.toNat ≤ 57 then c.toNat - 48 else if 97 ≤ c.toNat then c.toNat - 87 else c.toNat - 55)) 0

/-- An optional exponent with marker `m` or `M`. -/
inductive ExpText (m M : Char) : List Char → Int → Prop
  | absent : ExpText m M [] 0
  | plain (c : Char) (ds : List Char) (hc : c = m ∨ c = M) (h : ds ≠ []) (hd : Digits ds) :
      ExpText m M (c :: ds) (decNum ds)
  | plus (c : Char) (ds : List Char) (hc : c = m ∨ c = M) (h : ds ≠ []) (hd : Digits ds) :
      ExpText m M (c :: '+' :: ds) (decNum ds)
  | minus (c : Char) (ds : List Char) (hc : c = m ∨ c = M) (h : ds ≠ []) (hd : Digits ds) :
      ExpText m M (c :: '-' :: ds) (-(decNum ds))

/-- Decimal number without sign. -/
inductive DecText : List Char → ℚ → Prop
  | whole (ip ex : List Char) (e : Int) (h : ip ≠ []) (hi : Digits ip) (he : ExpText 'e' 'E' ex e) :
      DecText (ip ++ ex) ((decNum ip : ℚ) * (10 : ℚ) ^ e)
  | point (ip fp ex : List Char) (e : Int) (h : ip ++ fp ≠ []) (hi : Digits ip) (hf : Digits fp)
      (he : ExpText 'e' 'E' ex e) :
      DecText (ip ++ '.' :: (fp ++ ex)) ((decNum (ip ++ fp) : ℚ) / 10 ^ fp.length * (10 : ℚ) ^ e)

/-- Hexadecimal number without sign. -/
inductive HexText : List Char → ℚ → Prop
  | whole (x : Char) (ip ex : List Char) (e : Int) (hx : x = 'x' ∨ x = 'X') (h : ip ≠ []) (hi : HexDigits ip)
      (he : ExpText 'p' 'P' ex e) :
      HexText ('0' :: x :: (ip ++ ex)) ((hexNum ip : ℚ) * (2 : ℚ) ^ e)
  | point (x : Char) (ip fp ex : List Char) (e : Int) (hx : x = 'x' ∨ x = 'X') (h : ip ++ fp ≠ [])
      (hi : HexDigits ip) (hf : HexDigits fp) (he : ExpText 'p' 'P' ex e) :
      HexText ('0' :: x :: (ip ++ '.' :: (fp ++ ex)))
        ((hexNum (ip ++ fp) : ℚ) / 16 ^ fp.length * (2 : ℚ) ^ e)

/-- Letters, digits and underscore. -/
def NanChars (s : List Char) : Prop := ∀ c ∈ s, (48 ≤ c.toNat ∧ c.toNat ≤ 57) ∨ c = '_' ∨
  (97 ≤ c.toNat ∧ c.toNat ≤ 122) ∨ (65 ≤ c.toNat ∧ c.toNat ≤ 90)

/-- A number text without sign: decimal, hexadecimal, infinity or not-a-number. -/
inductive NumBody : List Char → DVal → Prop
  | dec (s : List Char) (q : ℚ) (h : DecText s q) : NumBody s (.fin q)
  | hex (s : List Char) (q : ℚ) (h : HexText s q) : NumBody s (.fin q)
  | inf (s : List Char) (h : SameText s "inf".toList ∨ SameText s "infinity".toList) : NumBody s (.inf false)
  | nan (s : List Char) (h : SameText s "nan".toList) : NumBody s .nan
  | nanSeq (s w : List Char) (h : SameText s "nan".toList) (hw : NanChars w) : NumBody (s ++ '(' :: (w ++ [')'])) .nan

/-- A number text: white space, optional sign, number. -/
inductive NumText : List Char → DVal → Prop
  | plain (ws body : List Char) (v : DVal) (hw : ∀ c ∈ ws, White c) (h : NumBody body v) : NumText (ws ++ body) v
  | plus (ws body : List Char) (v : DVal) (hw : ∀ c ∈ ws, White c) (h : NumBody body v) :
      NumText (ws ++ '+' :: body) v
  | minus (ws body : List Char) (v : DVal) (hw : ∀ c ∈ ws, White c) (h : NumBody body v) :
      NumText (ws ++ '-' :: body) v.negate

end CCGL.Spec
