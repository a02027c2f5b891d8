import Verif.Spec.Str
/-!
# Specification: collections and GridFS buckets
-/
namespace CCGL.Spec

/-- A name has a GridFS bucket: both of its collections exist. -/
def IsBucket (colls : List (List Char)) (b : List Char) : Prop :=
  b ++ ".files".toList ∈ colls ∧ b ++ ".chunks".toList ∈ colls

/-- A collection name MongoDB accepts: it is not empty and neither begins nor ends with a dot. -/
def LegalName (n : List Char) : Prop := n ≠ [] ∧ n.head? ≠ some '.' ∧ n.getLast? ≠ some '.'

/-- The collection of a bucket whose name contains a dot. -/
def DottedBucket (n : List Char) : Prop :=
  ∃ b, '.' ∈ b ∧ (n = b ++ ".files".toList ∨ n = b ++ ".chunks".toList)

end CCGL.Spec
