import Verif.Lemmas.ShippedData
import Verif.Model.ShippedCompositions

/-!
# Evaluation by the kernel of the checks of all compositions
-/

namespace Verif.ShippedData

set_option maxRecDepth 100000

theorem good0_ok : good0.all (fun n => consistent (textsR n) && loadable (textsR n)) = true := by decide +kernel

theorem good1_ok : good1.all (fun n => consistent (textsR n) && loadable (textsR n)) = true := by decide +kernel

theorem good2_ok : good2.all (fun n => consistent (textsR n) && loadable (textsR n)) = true := by decide +kernel

theorem good3_ok : good3.all (fun n => consistent (textsR n) && loadable (textsR n)) = true := by decide +kernel

theorem good4_ok : good4.all (fun n => consistent (textsR n) && loadable (textsR n)) = true := by decide +kernel

theorem good5_ok : good5.all (fun n => consistent (textsR n) && loadable (textsR n)) = true := by decide +kernel

end Verif.ShippedData
