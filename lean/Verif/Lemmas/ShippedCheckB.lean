import Verif.Lemmas.ShippedData
import Verif.Model.ShippedCompositions

/-!
# Evaluation by the kernel of the checks of all compositions
-/

namespace Verif.ShippedData

set_option maxRecDepth 100000

theorem good6_ok : good6.all (fun n => consistent (textsR n) && loadable (textsR n)) = true := by decide +kernel

theorem good7_ok : good7.all (fun n => consistent (textsR n) && loadable (textsR n)) = true := by decide +kernel

theorem good8_ok : good8.all (fun n => consistent (textsR n) && loadable (textsR n)) = true := by decide +kernel

theorem good9_ok : good9.all (fun n => consistent (textsR n) && loadable (textsR n)) = true := by decide +kernel

theorem good10_ok : good10.all (fun n => consistent (textsR n) && loadable (textsR n)) = true := by decide +kernel

theorem good11_ok : good11.all (fun n => consistent (textsR n) && loadable (textsR n)) = true := by decide +kernel

end Verif.ShippedData
