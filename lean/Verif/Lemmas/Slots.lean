import Verif.Lemmas.Construct
import Verif.Classes

/-!
# The constructor arguments of fastkml
-/

namespace Verif

/-- No constructor argument name of any class is listed twice (finite check over
all classes). -/
theorem slots_nodup (c : Cls) : (specialArgs (fastkml.info c).special ++
    (fastkml.info c).slots.map Prod.fst).Nodup := by
  have : ∀ c ∈ Cls.all, (specialArgs (fastkml.info c).special ++
    (fastkml.info c).slots.map Prod.fst).Nodup := by decide +kernel
  exact this c (Cls.mem_all c)

end Verif
