import Verif.Model.Serializer
/-
Equality of elements, for examples.
-/
namespace Verif

mutual
def Xml.same : Xml → Xml → Bool
  | .node t r n x ks, .node t' r' n' x' ks' => t == t' && r == r' && n == n' && x == x' && sameAll ks ks'

def sameAll : List Xml → List Xml → Bool
  | [], [] => true
  | x :: xs, y :: ys => x.same y && sameAll xs ys
  | _, _ => false
end

mutual
theorem same_iff : ∀ x y : Xml, x.same y = true ↔ x = y
  | .node t r n x ks, .node t' r' n' x' ks' => by
    have := sameAll_iff ks ks'
    simp [Xml.same, this, and_assoc]

theorem sameAll_iff : ∀ xs ys : List Xml, sameAll xs ys = true ↔ xs = ys
  | [], [] => by simp [sameAll]
  | [], _ :: _ => by simp [sameAll]
  | _ :: _, [] => by simp [sameAll]
  | x :: xs, y :: ys => by
    have h1 := same_iff x y
    have h2 := sameAll_iff xs ys
    simp [sameAll, h1, h2]
end

instance : DecidableEq Xml := fun x y => decidable_of_iff _ (same_iff x y)

end Verif
