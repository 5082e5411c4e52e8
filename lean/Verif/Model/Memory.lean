import Mathlib.Data.List.Perm.Basic
import Mathlib.Data.List.Nodup

/-!
# Heap memory: local MPFR variables and the reductions

`p1788/util/mpfr_var.hpp`, `p1788/util/mpfr_var_impl.hpp`, `p1788/reduction/reduction.hpp`, the local resource classes of
`mpfr_bin_ieee754_flavor_io_impl.hpp`.  Only the allocation and the release of memory are modelled, not its contents.  The
caches of MPFR and the temporary memory that GMP, MPFR and the standard library release themselves are left out.
-/

namespace P1788

/-- What a block of memory was obtained for.
Obtained at `mpfr_var_impl.hpp:133-190`, `reduction.hpp:91-330`, `_io_impl.hpp:640-1180`. -/
inductive Blk where
  /-- `new mpfr_ptr[n_]`, `reduction.hpp:95, 119` -/
  | ptrs
  /-- `new mpfr_t`, `reduction.hpp:183, 224, 266, 308` -/
  | mpfr
  /-- the digits of an `mpfr_t`, `mpz_t` or `mpq_t` (`mpfr_init2`, `mpz_init`, `mpq_init`) -/
  | limbs
  /-- `new char[n + 1]`, `mpfr_var_impl.hpp:338` -/
  | chars
  deriving DecidableEq

/-- The heap: the blocks in use (identified by a number), and the next free number. -/
structure Heap where
  live : List (ℕ × Blk)
  next : ℕ

/-- How a piece of code ends: normally, with `std::bad_alloc` (or another exception) on its way, with the termination of
the program by GMP, or with undefined behaviour (release of a block that is not in use or was obtained differently). -/
inductive MemOut (α : Type) where
  | ok (a : α) (h : Heap)
  | exn (h : Heap)
  | abort
  | ub

/-- Code that allocates and releases memory; `full` tells in which states the allocation fails. -/
def Mem (α : Type) : Type := (full : Heap → Bool) → Heap → MemOut α

namespace Mem
variable {α β : Type}

def pure (a : α) : Mem α := fun _ h => .ok a h

def bind (p : Mem α) (k : α → Mem β) : Mem β := fun full h =>
  match p full h with
  | .ok a h' => k a full h'
  | .exn h' => .exn h'
  | .abort => .abort
  | .ub => .ub

instance : Monad Mem where
  pure := Mem.pure
  bind := Mem.bind

end Mem

/-- Adds a block. -/
def Heap.add (h : Heap) (k : Blk) : Heap := ⟨(h.next, k) :: h.live, h.next + 1⟩
/-- Removes a block. -/
def Heap.del (h : Heap) (b : ℕ × Blk) : Heap := ⟨h.live.erase b, h.next⟩

/-- `operator new`: throws `std::bad_alloc` if there is no memory. -/
def Mem.new (k : Blk) : Mem ℕ := fun full h => if full h then .exn h else .ok h.next (h.add k)

/-- `mpfr_init2`, `mpz_init`, `mpq_init`: the allocation function of GMP terminates the program if there is no memory. -/
def Mem.init : Mem ℕ := fun full h => if full h then .abort else .ok h.next (h.add .limbs)

/-- `operator delete`, `mpfr_clear`, `mpz_clear`, `mpq_clear`. -/
def Mem.free (i : ℕ) (k : Blk) : Mem Unit := fun _ h => if (i, k) ∈ h.live then .ok () (h.del (i, k)) else .ub

/-- Access to a block (here: `mpfr_clear(*b)` reads the `mpfr_t`). -/
def Mem.touch (i : ℕ) (k : Blk) : Mem Unit := fun _ h => if (i, k) ∈ h.live then .ok () h else .ub

/-- A throw. -/
def Mem.throw {α : Type} : Mem α := fun _ h => .exn h

/-- A local object: `get` is run by its constructor, `free i k` by its destructor, at the end of the block and also when an
exception leaves it. -/
def Mem.scoped {α : Type} (get : Mem ℕ) (k : Blk) (body : Mem α) : Mem α := fun full h =>
  match get full h with
  | .ok i h1 =>
    match body full h1 with
    | .ok a h2 => (Mem.free i k >>= fun _ => Pure.pure a) full h2
    | .exn h2 => (Mem.free i k >>= fun _ => Mem.throw) full h2
    | .abort => .abort
    | .ub => .ub
  | .exn h' => .exn h'
  | .abort => .abort
  | .ub => .ub

/-- A local `mpfr_var` (`mpfr_var_impl.hpp:136-181`), `mpz_var` or `mpq_var`
(`mpfr_bin_ieee754_flavor_io_impl.hpp:512-541`). -/
def Mem.withVar {α : Type} (body : Mem α) : Mem α := Mem.scoped Mem.init .limbs body

/-- The local `string_buffer` of `get_str`, `mpfr_var_impl.hpp:331-345`. -/
def Mem.withBuffer {α : Type} (body : Mem α) : Mem α := Mem.scoped (Mem.new .chars) .chars body

/-- Code of the functions of the library, except the reductions, as far as it concerns memory: local variables in nested
blocks, branches that depend on the data, loops, exceptions.  (E.g. `add`, `_elem_func_impl.hpp:155-174`, is
`var (var (var (var skip)))`; the conversion of a literal, `_io_impl.hpp:667-724`, is
`var (cond (seq throw_or_not (var (var (var skip)))) skip)`, where `std::stoi` may throw.) -/
inductive Code where
  | skip
  | throw
  | seq (a b : Code)
  | cond (a b : Code)
  | loop (a : Code)
  | var (a : Code)
  | buffer (a : Code)

/-- The executions of `Code`: `Runs c p` if `p` is what `c` does for some outcome of its tests. -/
inductive Code.Runs : Code → Mem Unit → Prop where
  | skip : Runs .skip (Pure.pure ())
  | throw : Runs .throw Mem.throw
  | seq {a b p q} : Runs a p → Runs b q → Runs (.seq a b) (p >>= fun _ => q)
  | left {a b p} : Runs a p → Runs (.cond a b) p
  | right {a b p} : Runs b p → Runs (.cond a b) p
  | stop {a} : Runs (.loop a) (Pure.pure ())
  | step {a p q} : Runs a p → Runs (.loop a) q → Runs (.loop a) (p >>= fun _ => q)
  | var {a p} : Runs a p → Runs (.var a) (Mem.withVar p)
  | buffer {a p} : Runs a p → Runs (.buffer a) (Mem.withBuffer p)

/-! ## The reductions -/

/-- `t` local variables around nothing. -/
def Mem.temps : ℕ → Mem Unit
  | 0 => pure ()
  | t + 1 => Mem.withVar (Mem.temps t)

/-- The function that fills one element of the array; `t` is its number of local variables: 1 in `sum`
(`reduction.hpp:181-190`), `sum_abs` (`:222-232`) and `sum_sqr` (`:264-274`), 2 in `dot` (`:306-318`).  The result are the
`mpfr_t` and its digits. -/
def Mem.element (t : ℕ) : Mem (ℕ × ℕ) := do
  let s ← Mem.new .mpfr
  let l ← Mem.init
  Mem.temps t
  return (s, l)

/-- The loop of the constructor, `reduction.hpp:97-101, 121-125`. -/
def Mem.elements (t : ℕ) : ℕ → Mem (List (ℕ × ℕ))
  | 0 => pure []
  | n + 1 => do
    let e ← Mem.element t
    let r ← Mem.elements t n
    return e :: r

/-- The loop of the destructor, `reduction.hpp:142-143`. -/
def Mem.clearAll : List (ℕ × ℕ) → Mem Unit
  | [] => pure ()
  | (s, l) :: r => do
    Mem.touch s .mpfr
    Mem.free l .limbs
    Mem.clearAll r

/-- A reduction over a range of `n` elements: the constructor of `reduction_sum_op` (`reduction.hpp:92-113, 116-137`),
then its destructor (`:140-147`).  If an exception leaves the constructor, the destructor is not run. -/
def Mem.reduction (t n : ℕ) : Mem Unit := do
  let tab ← Mem.new .ptrs
  let els ← Mem.elements t n
  Mem.temps 1
  Mem.clearAll els
  Mem.free tab .ptrs

/-- A sequence of reductions, given by the lengths of the ranges. -/
def Mem.reductions (t : ℕ) : List ℕ → Mem Unit
  | [] => pure ()
  | n :: r => do
    Mem.reduction t n
    Mem.reductions t r

end P1788
