import Verif.Model.Doubles.Inject
/-
Vocabulary for the test doubles: what a test does with them, as lists of calls.
-/
namespace Verif.Spec
open Verif Doubles

/-- The calls are made one after the other, all of them return, and lead from `s` to `s'`. -/
inductive Calls (run : ι → M σ Unit) : σ → List ι → σ → Prop
  | nil (s : σ) : Calls run s [] s
  | cons {s s1 s2 : σ} {o : ι} {os : List ι} (h : run o s = .ok () s1) (t : Calls run s1 os s2) : Calls run s (o :: os) s2

/-! ### Failing allocations -/

/-- The calls of the allocation hooks. -/
inductive MOp
  | alloc
  | fail (n : U32)
  | restore
  deriving DecidableEq

/-- What each call does; its result is not kept. -/
def MOp.run : MOp → M Malloc Unit
  | .alloc => do let _ ← Doubles.alloc
  | .fail n => failAllocation n
  | .restore => restoreMalloc

/-! ### Failing file operations -/

/-- The calls of the file hooks. -/
inductive FOp
  | openReturns (r : Option Nat) | open | openRestore
  | closeIgnore | close | closeRestore
  | seekReturns (r : Int) | seekPasses (n : Int) | seek | seekRestore
  | tellFails (r : Int) | tell | tellRestore
  | writeFails (r : Nat) | write | writeRestore
  | readFails (r : Nat) | readToFail (n : Int) | read | readRestore
  | linesAre (ls : List Str) | gets (room : Nat) (size : Int) | getsRestore
  deriving DecidableEq

/-- What each call does; its result is not kept. -/
def FOp.run : FOp → M Files Unit
  | .openReturns r => fopenSetReturn r
  | .open => do let _ ← callFopen
  | .openRestore => fopenRestore
  | .closeIgnore => fcloseIgnore
  | .close => do let _ ← callFclose
  | .closeRestore => fcloseRestore
  | .seekReturns r => fseekSetReturn r
  | .seekPasses n => fseekSetCallsBeforeFailure n
  | .seek => do let _ ← callFseek
  | .seekRestore => fseekRestore
  | .tellFails r => ftellFail r
  | .tell => do let _ ← callFtell
  | .tellRestore => ftellRestore
  | .writeFails r => fwriteFail r
  | .write => do let _ ← callFwrite
  | .writeRestore => fwriteRestore
  | .readFails r => freadFail r
  | .readToFail n => Doubles.freadToFail n
  | .read => do let _ ← callFread
  | .readRestore => freadRestore
  | .linesAre ls => fgetsSetData ls
  | .gets room size => do let _ ← callFgets room size
  | .getsRestore => fgetsRestore

/-- The call sets how `fseek` behaves. -/
def FOp.setsSeek : FOp → Bool
  | .seekReturns _ => true
  | .seekPasses _ => true
  | .seekRestore => true
  | _ => false

/-- The call sets how `fread` behaves. -/
def FOp.setsRead : FOp → Bool
  | .readFails _ => true
  | .readToFail _ => true
  | .readRestore => true
  | _ => false

/-- The call sets what `fgets` delivers. -/
def FOp.setsGets : FOp → Bool
  | .linesAre _ => true
  | .getsRestore => true
  | _ => false

/-- The call sets how `fopen`, `fclose`, `ftell` or `fwrite` behaves. -/
def FOp.setsOther : FOp → Bool
  | .openReturns _ => true
  | .openRestore => true
  | .closeIgnore => true
  | .closeRestore => true
  | .tellFails _ => true
  | .tellRestore => true
  | .writeFails _ => true
  | .writeRestore => true
  | _ => false

/-- The call is one of `fgets`. -/
def FOp.isGets : FOp → Bool
  | .gets .. => true
  | _ => false

/-- The C string at the beginning of the bytes. -/
def cString (b : Str) : Str := b.takeWhile (· ≠ 0#8)

end Verif.Spec
