import Verif.Classes
import Verif.Lemmas.ReadTyped
import Verif.Lemmas.Written

/-!
# The class conditions hold for fastkml
-/

namespace Verif

theorem fastkml_boolOk (c : Cls) : boolOk fastkml c = true := by
  have : ∀ c ∈ Cls.all, boolOk fastkml c = true := by decide +kernel
  exact this c (Cls.mem_all c)

theorem fastkml_readOk (c : Cls) : ReadOk fastkml c := by
  have : ∀ c ∈ Cls.all, readOk fastkml c = true := by decide +kernel
  exact readOk_iff (this c (Cls.mem_all c))

theorem fastkml_writeOk (c : Cls) : WriteOk fastkml c := by
  have : ∀ c ∈ Cls.all, writeOk fastkml c = true := by decide +kernel
  exact writeOk_iff (this c (Cls.mem_all c))

end Verif
