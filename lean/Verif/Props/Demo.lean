import Verif.Spec.History
/- The concrete simulator used beside the theorems is reachable and satisfies the consistency conditions. -/
namespace Verif.Spec
open Verif MemSim

theorem demo_exec : exec demoCalls (init goodHeap) = some demo := by rfl
theorem demo_sound : Sound demo := by decide
theorem demo_counted : Counted demo := by decide
theorem demo_room : HitRoom demo := by decide

end Verif.Spec
