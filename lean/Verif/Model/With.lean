import Verif.Model.Pool
/-
`with` statements over a runspace pool and over a pipeline (powershell.py), and `Client.execute_ps` (client.py).
-/
namespace Verif

/-- The body of a `with` and then `__exit__`: an exception of the body or of `__exit__` gets out, the latter first; while the body
waits nothing more happens. Python keeps the exception of the body as the context of the other, which is not modelled. -/
def leaving (exit : PoolM Unit) (body : PoolM α) : PoolM α := fun w =>
  match body w with
  | (.waiting, w1) => (.waiting, w1)
  | (r, w1) =>
    match exit w1 with
    | (.ok _, w2) => (r, w2)
    | (.raised e, w2) => (.raised e, w2)
    | (.waiting, w2) => (.waiting, w2)

/-- `with pool: body`: powershell.py 274-284. If `open` raises, `__exit__` is not called. -/
def withPool (body : PoolM α) : PoolM α := do
  openPool
  leaving closePool body

/-- `with powershell: body`: powershell.py 967-976. -/
def withPipe (i : Nat) (body : PoolM α) : PoolM α := leaving (closePipe i) body

/-- What users write: calls, decisions on anything that they can see, exceptions of their own, `try`/`except`, and `with`
statements, in any nesting. Loops are unrolled. -/
inductive Prog where
  | done
  | raise (e : PyErr)
  | call (op : Op) (next : Prog)
  | branch (cond : World → Bool) (yes no : Prog)
  | attempt (body handler next : Prog)
  | inPool (body next : Prog)
  | inPipe (i : Nat) (body next : Prog)

/-- `try: body` with `except Exception: handler`. -/
def attempt (body handler : PoolM Unit) : PoolM Unit := fun w =>
  match body w with
  | (.raised _, w1) => handler w1
  | (r, w1) => (r, w1)

/-- Running a user's program. -/
def Prog.run : Prog → PoolM Unit
  | .done => pure ()
  | .raise e => Verif.raise e
  | .call op next => do
    runOp op
    next.run
  | .branch cond yes no => do
    let w ← getW
    if cond w then yes.run else no.run
  | .attempt body handler next => do
    Verif.attempt body.run handler.run
    next.run
  | .inPool body next => do
    withPool body.run
    next.run
  | .inPipe i body next => do
    withPipe i body.run
    next.run

/-- client.py 213-222: the commands of the pipeline, as many as asked. -/
def addCommands (i : Nat) : Nat → PoolM Unit
  | 0 => pure ()
  | n + 1 => do
    addCommand i
    addCommands i n

/-- client.py 208-232: the pool's part of `execute_ps`, with the number of the pipeline. Two commands for each variable of the
environment, and two for the script (Model/Client has what they are). -/
def runPs (environment : Nat) : PoolM Nat := withPool do
  let i ← newPipe false
  addCommands i (2 * environment + 2)
  let _ ← invoke i .none
  pure i

/-- client.py 181-234 `execute_ps`: the output, here before it is joined, the streams, and whether there were errors. -/
def runScript (environment : Nat) : PoolM (List Obj × Streams × Bool) := do
  let i ← runPs environment
  let w ← getW
  pure ((w.pipes i).output, (w.pipes i).streams, (w.pipes i).hadErrors)

end Verif
