import Verif.Model.Bytes
/-
`DisableNewConnectionsContext` and the wrapped `connect` (src/pypsrp/_pool_manager.py 21-50, 80-116).
-/
namespace Verif

/-- A `contextvars.Token`: the context it was created in and the value before `set`. -/
structure CtxToken where
  ctx : Nat
  old : Option Nat
  deriving DecidableEq, Repr

/-- The class level context variable, per execution context (thread or task), and the `_contextvar_token` slot of
every `DisableNewConnectionsContext` instance. Instances and contexts are numbered. -/
structure CtxState where
  var : Nat → Option Nat
  slot : Nat → Option CtxToken

/-- One action of an execution context: `with obj:` entered, left (normally or by an exception, `__exit__` ignores its
arguments), a call of a wrapped `connect`, and starting another context as a copy of this one
(`contextvars.copy_context`, used for tasks). A new thread starts with an unset variable. -/
inductive CtxOp where
  | enter (ctx obj : Nat)
  | exit (ctx obj : Nat)
  | connect (ctx : Nat)
  | spawn (ctx new : Nat)
  deriving DecidableEq, Repr

def update (f : Nat → α) (i : Nat) (v : α) : Nat → α := fun j => if j = i then v else f j

/-- _pool_manager.py 37-39 `__enter__`, 41-50 `__exit__`, 103-109 `_raise_if_connections_disabled` wrapped around
`connect`. `ContextVar.reset` raises ValueError for a token of another context; the slot is deleted after a
successful reset so a token is never reset twice. -/
def ctxStep (s : CtxState) : CtxOp → CtxState × Except PyErr Unit
  | .enter c o => ({ var := update s.var c (some o), slot := update s.slot o (some ⟨c, s.var c⟩) }, .ok ())
  | .exit c o =>
    match s.slot o with
    | none => (s, .error .attributeError)
    | some t =>
      if t.ctx = c then ({ var := update s.var c t.old, slot := update s.slot o none }, .ok ())
      else (s, .error .valueError)
  | .connect c =>
    match s.var c with
    | some _ => (s, .error .newConnectionDisabled)
    | none => (s, .ok ())
  | .spawn c d => ({ s with var := update s.var d (s.var c) }, .ok ())

/-- A run, with the outcome of every action. -/
def ctxRun (s : CtxState) : List CtxOp → CtxState × List (Except PyErr Unit)
  | [] => (s, [])
  | op :: ops =>
    let (s1, r) := ctxStep s op
    let (s2, rs) := ctxRun s1 ops
    (s2, r :: rs)

/-- Before the first use nothing is set. -/
def CtxState.init : CtxState := { var := fun _ => none, slot := fun _ => none }

end Verif
