import Verif.OAuth.Http
import Verif.Jose.Jwt

/-!
# Asynchronous programs

An endpoint is a coroutine. It can be suspended, cancelled or interleaved with other requests only where it
awaits the adapter (`/repo/src/psion/oauth2/adapter.py`). A coroutine is therefore modelled as a tree: a `Prog` is finished or
performs one operation and continues with its answer. The answer may be an exception (the adapter failed, or
the task was cancelled while waiting). Reading the clock and drawing random numbers are operations as well.
-/

namespace Psion

/-- The owner for whom an access token is created (`Union[ClientMixin, UserMixin]`; the refresh token grant may pass
`None`). -/
inductive Owner
  | client (c : Client)
  | user (u : Option User)

/-- Operations, `/repo/src/psion/oauth2/adapter.py:13-230`. The code passed to `getCode` and `deleteCode` is whatever
is stored under `"code"` in the data of the grant. -/
inductive Op
  | findUser (id : PyStr)
  | findClient (id : PyStr)
  | saveCode (code : PyStr) (data : Dict PyStr Val) (client : Client) (user : User)
  | getCode (code : Val)
  | deleteCode (code : Val)
  | createAccess (client : Client) (owner : Owner) (scopes : List PyStr)
  | createRefresh (client : Client) (user : Option User) (scopes : List PyStr)
  | getRefresh (token : PyStr)
  | revoke (client : Client) (token : PyStr) (hint : Option PyStr)
  | getUserinfo (user : User) (scopes : List PyStr)
  | getKeyInfo
  /-- `datetime.utcnow()` as compared with expiration dates. -/
  | now
  /-- `int(datetime.utcnow().timestamp())`. -/
  | stamp
  /-- The 64 random choices of `secret_token(64)`. -/
  | choices64
  /-- Randomness of a signature. -/
  | seed

/-- Type of the answer of an operation. -/
@[reducible] def Op.Ans : Op → Type
  | .findUser _ => Option User
  | .findClient _ => Option Client
  | .saveCode .. => Unit
  | .getCode _ => Option AuthCode
  | .deleteCode _ => Unit
  | .createAccess .. => PyStr
  | .createRefresh .. => PyStr
  | .getRefresh _ => Option RefreshTok
  | .revoke .. => Unit
  | .getUserinfo .. => Dict PyStr Val
  | .getKeyInfo => Jwk × PyStr
  | .now => Int
  | .stamp => Int
  | .choices64 => { l : List (Fin 64) // l.length = 64 }
  | .seed => Nat

/-- A coroutine that returns a value of type `α`. -/
inductive Prog (α : Type)
  | done (a : α)
  | op (o : Op) (k : ORes o.Ans → Prog α)

namespace Prog

/-- Sequential composition. -/
def bind {α β : Type} : Prog α → (α → Prog β) → Prog β
  | .done a, f => f a
  | .op o k, f => .op o (fun r => bind (k r) f)

end Prog

/-- A coroutine that returns a value or raises. -/
abbrev P (α : Type) := Prog (ORes α)

namespace P

/-- `return a`. -/
def ret {α : Type} (a : α) : P α := .done (.ok a)

/-- `raise e`. -/
def raise {α : Type} (e : OExc) : P α := .done (.error e)

/-- `x = await p; ...`. -/
def bind {α β : Type} (p : P α) (f : α → P β) : P β :=
  Prog.bind p (fun r => match r with | .ok a => f a | .error e => .done (.error e))

/-- `await operation`. -/
def call (o : Op) : P o.Ans := .op o .done

/-- A call of a function that does not wait. -/
def lift {α : Type} (r : ORes α) : P α := .done r

/-- `try: p except OAuth2Error as exc: handler(exc)`. -/
def catchOAuth {α : Type} (p : P α) (handler : OErr → P α) : P α :=
  Prog.bind p (fun r => match r with
    | .ok a => .done (.ok a)
    | .error (.oauth e) => handler e
    | .error (.py e) => .done (.error (.py e)))

/-- `try: p finally: q`: `q` runs in every case; an exception raised by `q` replaces the outcome of `p`. -/
def finally_ {α : Type} (p : P α) (q : P Unit) : P α :=
  Prog.bind p (fun r => Prog.bind q (fun s => match s with | .ok _ => .done r | .error e => .done (.error e)))

end P

/-! ## Executions -/

/-- One performed operation with its answer. -/
structure Ev where
  op : Op
  ans : ORes op.Ans

/-- `Exec p tr a`: the coroutine `p` can perform exactly the operations of `tr`, with these answers, and then ends with `a`.
No assumption is made about the answers. -/
inductive Exec {α : Type} : Prog α → List Ev → α → Prop
  | done (a : α) : Exec (.done a) [] a
  | op (o : Op) (k : ORes o.Ans → Prog α) (r : ORes o.Ans) (tr : List Ev) (a : α) :
      Exec (k r) tr a → Exec (.op o k) (⟨o, r⟩ :: tr) a

/-- `Partial p tr`: the coroutine can have performed the operations of `tr` so far (it may be finished, still running, or
lost in a crash of the process). An operation whose answer never arrived is the last one, with an arbitrary answer. -/
inductive Partial {α : Type} : Prog α → List Ev → Prop
  | here (p : Prog α) : Partial p []
  | op (o : Op) (k : ORes o.Ans → Prog α) (r : ORes o.Ans) (tr : List Ev) :
      Partial (k r) tr → Partial (.op o k) (⟨o, r⟩ :: tr)

end Psion
