import Verif.Model.PoolManager
/-
Specification of scoping (C61): for each context, whether it was started inside a scope and which scopes it has open.
-/
namespace Verif

/-- What a user knows: the scopes each context has open (innermost first) and whether the context was started by one
in which connections were disabled. -/
structure Scopes where
  inherited : Nat → Bool
  opened : Nat → List Nat

def Scopes.none : Scopes := ⟨fun _ => false, fun _ => []⟩

/-- Connections are disabled in a context that has a scope open or was started with connections disabled. -/
def Scopes.disabled (k : Scopes) (c : Nat) : Bool := k.inherited c || k.opened c != []

def Scopes.next (k : Scopes) : CtxOp → Scopes
  | .enter c o => { k with opened := update k.opened c (o :: k.opened c) }
  | .exit c _ => { k with opened := update k.opened c (k.opened c).tail }
  | .connect _ => k
  | .spawn c d => { k with inherited := update k.inherited d (k.disabled c) }

/-- Proper use of `with`: a scope object is not entered again while it is open, scopes are left in reverse order by
the context that entered them, and a started context is new: it has no scope open yet. -/
def Scopes.Proper (k : Scopes) : List CtxOp → Prop
  | [] => True
  | op :: ops =>
    (match op with
      | .enter _ o => ∀ c, o ∉ k.opened c
      | .exit c o => (k.opened c).head? = some o
      | .connect _ => True
      | .spawn _ d => k.opened d = [])
    ∧ (k.next op).Proper ops

/-- The expected outcome: only `connect` can fail, exactly when connections are disabled in its context. -/
def Scopes.outcome (k : Scopes) : CtxOp → Except PyErr Unit
  | .connect c => if k.disabled c then .error .newConnectionDisabled else .ok ()
  | _ => .ok ()

def Scopes.outcomes (k : Scopes) : List CtxOp → List (Except PyErr Unit)
  | [] => []
  | op :: ops => k.outcome op :: (k.next op).outcomes ops

def Scopes.after (k : Scopes) : List CtxOp → Scopes
  | [] => k
  | op :: ops => (k.next op).after ops

end Verif
