import Verif.Model.MpfrVar
import Verif.Model.Exception

/-!
# Threads

Executions of several threads that use the library at the same time.  Each thread runs its own instructions; an instruction is one
access to static storage (MPFR's exponent range, or the two variables of `exception.hpp`) together with a computation on data of the
thread.  A schedule is any sequence of threads: each entry lets that thread do its next instruction.

Simplification: memory is sequentially consistent.  In C++ unsynchronised accesses of which one is a store are undefined behaviour, so
that what is shown here to go wrong is the least that can go wrong.
-/

namespace P1788

section
variable {ι κ I L S : Type}

/-- A state of the execution: for each thread the instructions left and its own data; the static storage.  Thread `t` uses the cell
`own t`: with thread-local storage the cells of different threads differ, otherwise there is only one. -/
structure Conf (ι κ I L S : Type) where
  prog : ι → List I
  loc : ι → L
  mem : κ → S

variable [DecidableEq ι] [DecidableEq κ]

/-- Thread `t` does its next instruction. -/
def Conf.step (exec : I → L → S → L × S) (own : ι → κ) (c : Conf ι κ I L S) (t : ι) : Conf ι κ I L S :=
  match c.prog t with
  | [] => c
  | i :: is =>
    let r := exec i (c.loc t) (c.mem (own t))
    ⟨Function.update c.prog t is, Function.update c.loc t r.1, Function.update c.mem (own t) r.2⟩

/-- The execution with a given schedule. -/
def Conf.run (exec : I → L → S → L × S) (own : ι → κ) (c : Conf ι κ I L S) (sched : List ι) : Conf ι κ I L S :=
  sched.foldl (Conf.step exec own) c

end

/-! ## Arithmetic -/

section
variable {K : Type} [Field K] [LinearOrder K] [IsStrictOrderedRing K] [FloorRing K]

/-- The instructions of an operation on bounds.  The exact result of an MPFR operation may depend on what the thread has computed
before. -/
inductive MInstr (K : Type) where
  | setup (φ : Fmt)
  | op (φ : Fmt) (m : Rnd) (x : List FP → K)
  | sub (φ : Fmt) (m : Rnd)
  | get (φ : Fmt) (m : Rnd)

/-- The data of a thread: the variable `z` with the ternary value, and the results so far. -/
structure MLoc where
  z : FP × ℤ
  out : List FP

/-- `setup()`, `mpfr_op(z(), ..., m)`, `z.subnormalize(..., m)`, `z.get<T>(m)` as in `Fmt.viaMpfr`
(`mpfr_var_impl.hpp:43-126, 218-224, 366-372`); the exact result 0 is not changed by any of them. -/
def MInstr.exec : MInstr K → MLoc → Range → MLoc × Range
  | .setup φ, l, r => (l, φ.var.setup r)
  | .op φ m x, l, r => ({ l with z := if x l.out = 0 then (.fin 0, 0) else r.op φ.var.prec m (x l.out) }, r)
  | .sub φ m, l, r => ({ l with z := φ.var.subnormalize r m l.z }, r)
  | .get φ m, l, r => ({ l with out := l.out ++ [φ.get m l.z.1] }, r)

/-- A call of a function of the library: the type, and for each number computed the rounding direction and the exact value. -/
structure MCall (K : Type) where
  fmt : Fmt
  ops : List (Rnd × (List FP → K))

/-- The code of a call: `setup()`, then the operations (e.g. `_elem_func_impl.hpp:155-174`, `add`: one for each bound; loading the operands is exact and left out). -/
def MCall.code (c : MCall K) : List (MInstr K) :=
  .setup c.fmt :: c.ops.flatMap fun p => [.op c.fmt p.1 p.2, .sub c.fmt p.1, .get c.fmt p.1]

/-- The start of an execution: thread `t` makes the calls `calls t`; the exponent ranges are arbitrary. -/
def startCalls {ι κ : Type} (calls : ι → List (MCall K)) (r : κ → Range) : Conf ι κ (MInstr K) MLoc Range :=
  ⟨fun t => (calls t).flatMap MCall.code, fun _ => ⟨(.nan, 0), []⟩, r⟩

end

/-! ## Exceptions -/

/-- The accesses to `exception_state_` and `exception_cwd_`. -/
inductive EInstr where
  | load
  | orStore (e : Ex)
  | check (e : Ex)
  | ret
  | store
  | mask (b : Bits)
  | test (e : Ex)

/-- What a thread can observe. -/
inductive Obs where
  | state (b : Bits)
  | flag (e : Ex) (b : Bool)
  | thrown (e : Ex)

/-- The data of a thread: the value loaded, whether it leaves the function by an exception, and what it has observed. -/
structure ELoc where
  reg : Bits
  leave : Bool
  out : List Obs

/-- One access. -/
def EInstr.exec : EInstr → ELoc → ExSt → ELoc × ExSt
  | .load, l, s => ({ l with reg := s.flags }, s)
  | .orStore e, l, s => (l, { s with flags := fun e' => if e' = e then true else l.reg e' })
  | .check e, l, s => if s.cwd e then ({ l with leave := true, out := l.out ++ [.thrown e] }, s) else (l, s)
  | .ret, l, s => if l.leave then ({ l with leave := false }, s) else ({ l with out := l.out ++ [.state s.flags] }, s)
  | .store, l, s => (l, { s with flags := Bits.none })
  | .mask b, l, s => (l, { s with cwd := b })
  | .test e, l, s => ({ l with out := l.out ++ [.flag e (s.flags e)] }, s)

/-- What a thread may call: `signal_...`, `clear`, `set_throw_exception_cwd` and the queries `undefined_operation()` etc. -/
inductive ECmd where
  | signal (e : Ex)
  | clear
  | setMask (b : Bits)
  | query (e : Ex)

/-- Their code: `signal_...` (`exception.hpp:237-294`: load and store of `state() |= bit`, the test of the control word, the value
returned), `clear` (`:195-198`), `set_throw_exception_cwd` (`:114-117`), the queries (`:203-230`). -/
def ECmd.code : ECmd → List EInstr
  | .signal e => [.load, .orStore e, .check e, .ret]
  | .clear => [.store, .ret]
  | .setMask b => [.mask b]
  | .query e => [.test e]

/-- The start of an execution, with the initial values `none_bit` (`exception.hpp:103, 186`). -/
def startCmds {ι κ : Type} (cmds : ι → List ECmd) : Conf ι κ EInstr ELoc ExSt :=
  ⟨fun t => (cmds t).flatMap ECmd.code, fun _ => ⟨Bits.none, false, []⟩, fun _ => ⟨Bits.none, Bits.none⟩⟩

end P1788
