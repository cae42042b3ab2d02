/-
Base layer of the model: machine integers, C strings as byte lists, exceptions, outcomes of running C code.
-/
namespace Verif

/-- `uint8_t` / `char` (bytes are kept unsigned). Part of the meaning of C; models no code of its own in /repo. -/
abbrev U8 := BitVec 8
/-- `uint16_t`. Part of the meaning of C; models no code of its own in /repo. -/
abbrev U16 := BitVec 16
/-- `uint32_t`. Part of the meaning of C; models no code of its own in /repo. -/
abbrev U32 := BitVec 32
/-- A C string without its terminating NUL, or a run of bytes. Part of the meaning of C; models no code of its own in /repo. -/
abbrev Str := List U8

/-- A C string literal as bytes. Part of the meaning of C; models no code of its own in /repo. -/
def asc (s : String) : Str := s.toList.map (fun c => BitVec.ofNat 8 c.toNat)

/-- Exception codes that the modelled code can raise (include/try_catch.h:23-38; `bufferOverrunException`,
`invalidArgumentException` and `invalidHexDigitException` come from mri's try_catch.h, which is not in /repo). -/
inductive Exc
  | bufferOverrun | invalidHexDigit | invalidArgument
  | outOfMemory | busError | hardwareBreakpoint | file | elfFormat | fileFormat | stackOverflow
  deriving DecidableEq, Repr

/-- A raised exception: `g_exceptionCode` and `g_exceptionMessage` as the handler sees them
(include/try_catch.h:54-55, 84-103). A plain `__throw` does not set a message; the enclosing `__try` has emptied it.
The message buffer has 1024 bytes: see `M.throw` and `M.throwMsg`. -/
structure Exn where
  code : Exc
  msg : Str := []
  deriving DecidableEq, Repr

/-- Kinds of undefined behaviour (and failed `assert`s) that the model distinguishes. Part of the meaning of C; models no code
of its own in /repo. -/
inductive UB
  | outOfBounds     -- host access outside an allocated buffer
  | nullDeref       -- access through a null pointer
  | dangling        -- access through a pointer to a released region
  | signedOverflow  -- `int` overflow
  | assertFailed    -- `assert` fired
  | misaligned      -- host access at an address that is no multiple of its size (only in Model/Strict.lean)
  | outOfFuel       -- not C: a loop of the model ran out of its step bound (proved not to happen)
  deriving DecidableEq, Repr

/-- Outcome of running a piece of C code. An exception is a `longjmp`, so the state reached so far is kept. Undefined behaviour
is an outcome of its own and has no state after it. Part of the meaning of C; models no code of its own in /repo. -/
inductive Out (σ : Type) (α : Type)
  | ok (a : α) (s : σ)
  | throw (e : Exn) (s : σ)
  | ub (r : UB)

/-- C code working on a state `σ` and returning `α`. Part of the meaning of C; models no code of its own in /repo. -/
def M (σ : Type) (α : Type) := σ → Out σ α

namespace M

/-- Sequencing. -/
protected def bind (m : M σ α) (f : α → M σ β) : M σ β := fun s =>
  match m s with
  | .ok a s' => f a s'
  | .throw e s' => .throw e s'
  | .ub r => .ub r

instance : Monad (M σ) where
  pure a := fun s => .ok a s
  bind := M.bind

/-- `__throw`, and `__throw_msg` where the message has less than 1024 bytes whatever is put in it
(include/try_catch.h:84-103). -/
def throw (c : Exc) (msg : Str := []) : M σ α := fun s => .throw ⟨c, msg⟩ s

/-- `__throw_msg` where the message has a string of any length in it: `snprintf` cuts it to what `g_exceptionMessage` can
hold, 1023 bytes and the NUL (include/try_catch.h:99-103, libcommon/src/try_catch.c:17). -/
def throwMsg (c : Exc) (msg : Str) : M σ α := fun s => .throw ⟨c, msg.take 1023⟩ s

/-- `__throw(getExceptionCode())` with the message left alone, i.e. `__rethrow` (include/try_catch.h:105). -/
def rethrow (e : Exn) : M σ α := fun s => .throw e s

/-- Undefined behaviour is reached. Part of the meaning of C; models no code of its own in /repo. -/
def ub (r : UB) : M σ α := fun _ => .ub r

/-- `__try body __catch handler` (include/try_catch.h:64-82), structured reading: the handler runs exactly when the
body raised. See `Model/TryCatch.lean` for the macros with their global variables. -/
def tryCatch (body : M σ α) (handler : Exn → M σ α) : M σ α := fun s =>
  match body s with
  | .ok a s' => .ok a s'
  | .throw e s' => handler e s'
  | .ub r => .ub r

/-- Part of the meaning of C; models no code of its own in /repo. -/
def get : M σ σ := fun s => .ok s s
/-- Part of the meaning of C; models no code of its own in /repo. -/
def set (s : σ) : M σ Unit := fun _ => .ok () s
/-- Part of the meaning of C; models no code of its own in /repo. -/
def modify (f : σ → σ) : M σ Unit := fun s => .ok () (f s)

/-- Run code that works on a component of the state. Part of the meaning of C; models no code of its own in /repo. -/
def zoom (proj : τ → σ) (put : σ → τ → τ) (m : M σ α) : M τ α := fun t =>
  match m (proj t) with
  | .ok a s => .ok a (put s t)
  | .throw e s => .throw e (put s t)
  | .ub r => .ub r

@[simp] theorem bind_apply (m : M σ α) (f : α → M σ β) (s : σ) :
    (m >>= f) s = match m s with
      | .ok a s' => f a s'
      | .throw e s' => .throw e s'
      | .ub r => .ub r := rfl
theorem bind_ok {m : M σ α} {f : α → M σ β} {s s' : σ} {a : α} (h : m s = .ok a s') : (m >>= f) s = f a s' := by
  rw [bind_apply, h]
theorem bind_throw {m : M σ α} {f : α → M σ β} {s s' : σ} {e : Exn} (h : m s = .throw e s') :
    (m >>= f) s = .throw e s' := by rw [bind_apply, h]
theorem bind_ub {m : M σ α} {f : α → M σ β} {s : σ} {r : UB} (h : m s = .ub r) : (m >>= f) s = .ub r := by
  rw [bind_apply, h]
@[simp] theorem pure_apply (a : α) (s : σ) : (pure a : M σ α) s = .ok a s := rfl
@[simp] theorem throw_apply (c : Exc) (msg : Str) (s : σ) :
    (M.throw c msg : M σ α) s = .throw ⟨c, msg⟩ s := rfl
@[simp] theorem throwMsg_apply (c : Exc) (msg : Str) (s : σ) :
    (M.throwMsg c msg : M σ α) s = .throw ⟨c, msg.take 1023⟩ s := rfl
@[simp] theorem rethrow_apply (e : Exn) (s : σ) : (M.rethrow e : M σ α) s = .throw e s := rfl
@[simp] theorem ub_apply (r : UB) (s : σ) : (M.ub r : M σ α) s = .ub r := rfl
@[simp] theorem get_apply (s : σ) : (M.get : M σ σ) s = .ok s s := rfl
@[simp] theorem set_apply (s t : σ) : (M.set t : M σ Unit) s = .ok () t := rfl
@[simp] theorem modify_apply (f : σ → σ) (s : σ) : (M.modify f : M σ Unit) s = .ok () (f s) := rfl
@[simp] theorem tryCatch_apply (b : M σ α) (h : Exn → M σ α) (s : σ) :
    (M.tryCatch b h) s = match b s with
      | .ok a s' => .ok a s'
      | .throw e s' => h e s'
      | .ub r => .ub r := rfl
@[simp] theorem zoom_apply (p : τ → σ) (q : σ → τ → τ) (m : M σ α) (t : τ) :
    (M.zoom p q m) t = match m (p t) with
      | .ok a s => .ok a (q s t)
      | .throw e s => .throw e (q s t)
      | .ub r => .ub r := rfl

end M

/-- The number denoted by bytes in little-endian order (the host and the target are little-endian). Part of the meaning of C;
models no code of its own in /repo. -/
def leVal : List U8 → Nat
  | [] => 0
  | b :: bs => b.toNat + 256 * leVal bs

/-- The low `n` bytes of a number, little-endian order. Part of the meaning of C; models no code of its own in /repo. -/
def leBytes : Nat → Nat → List U8
  | 0, _ => []
  | n + 1, v => BitVec.ofNat 8 v :: leBytes n (v / 256)

end Verif
