import Verif.Lemmas.ShippedData
import Verif.Model.ShippedCompositions

/-!
# Evaluation by the kernel of the checks of all compositions
-/

namespace Verif.ShippedData

set_option maxRecDepth 100000

theorem good18_ok : good18.all (fun n => consistent (textsR n) && loadable (textsR n)) = true := by decide +kernel

theorem good19_ok : good19.all (fun n => consistent (textsR n) && loadable (textsR n)) = true := by decide +kernel

theorem good20_ok : good20.all (fun n => consistent (textsR n) && loadable (textsR n)) = true := by decide +kernel

theorem good21_ok : good21.all (fun n => consistent (textsR n) && loadable (textsR n)) = true := by decide +kernel

theorem good22_ok : good22.all (fun n => consistent (textsR n) && loadable (textsR n)) = true := by decide +kernel

end Verif.ShippedData
