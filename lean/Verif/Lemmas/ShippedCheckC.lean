import Verif.Lemmas.ShippedData
import Verif.Model.ShippedCompositions

/-!
# Evaluation by the kernel of the checks of all compositions
-/

namespace Verif.ShippedData

set_option maxRecDepth 100000

theorem good12_ok : good12.all (fun n => consistent (textsR n) && loadable (textsR n)) = true := by decide +kernel

theorem good13_ok : good13.all (fun n => consistent (textsR n) && loadable (textsR n)) = true := by decide +kernel

theorem good14_ok : good14.all (fun n => consistent (textsR n) && loadable (textsR n)) = true := by decide +kernel

theorem good15_ok : good15.all (fun n => consistent (textsR n) && loadable (textsR n)) = true := by decide +kernel

theorem good16_ok : good16.all (fun n => consistent (textsR n) && loadable (textsR n)) = true := by decide +kernel

theorem good17_ok : good17.all (fun n => consistent (textsR n) && loadable (textsR n)) = true := by decide +kernel

end Verif.ShippedData
